import Verif.Commands.Near
import Verif.Commands.Session
/-!
# Handlers and line numbers

A handler of a real version uses the number of a line only to note it: in the command object, in the
data objects made from the line and in exceptions.
-/
namespace Ks

open Cmd

/-- The handler with every line number in it set to 0. -/
def Handler.unline (h : Handler CState Ns) : Handler CState Ns :=
  { h with heap := h.heap.map fun o => ⟨o.cls, o.inst.unline⟩ }

/-- The handlers differ only in line numbers. -/
def NearH (h h' : Handler CState Ns) : Prop := h.unline = h'.unline

/-- Every object is of a class that only notes the line number. -/
def Handler.AllBlind (h : Handler CState Ns) : Prop := ∀ o ∈ h.heap, Command.Blind o.cls

theorem NearH.refl (h : Handler CState Ns) : NearH h h := rfl

theorem NearH.parts {h h' : Handler CState Ns} (n : NearH h h') :
    h.commands = h'.commands ∧ h.writeOrder = h'.writeOrder ∧ h.attrs = h'.attrs ∧
    ∀ r : Nat, h.heap[r]?.map (fun o => (⟨o.cls, o.inst.unline⟩ : Obj CState Ns)) = h'.heap[r]?.map fun o => ⟨o.cls, o.inst.unline⟩ := by
  simp only [NearH, Handler.unline, Handler.mk.injEq] at n
  obtain ⟨h1, h2, h3, h4⟩ := n
  refine ⟨h2, h3, h4, fun r => ?_⟩
  have := congrArg (fun l => l[r]?) h1
  simpa using this

theorem NearH.obj {h h' : Handler CState Ns} (n : NearH h h') {r : Nat} {o : Obj CState Ns} (ho : h.heap[r]? = some o) :
    ∃ i, h'.heap[r]? = some ⟨o.cls, i⟩ ∧ NearI o.inst i := by
  have := n.parts.2.2.2 r
  rw [ho] at this
  cases h2 : h'.heap[r]? with
  | none => rw [h2] at this; simp at this
  | some o' =>
    rw [h2] at this
    simp only [Option.map_some, Option.some.injEq, Obj.mk.injEq] at this
    obtain ⟨h3, h4⟩ := this
    obtain ⟨c, i⟩ := o'
    simp only at h3
    subst h3
    exact ⟨i, rfl, h4⟩

theorem NearH.noObj {h h' : Handler CState Ns} (n : NearH h h') {r : Nat} (ho : h.heap[r]? = none) : h'.heap[r]? = none := by
  have := n.parts.2.2.2 r
  rw [ho] at this
  cases h2 : h'.heap[r]? with
  | none => rfl
  | some o' => rw [h2] at this; simp at this

theorem NearH.className {h h' : Handler CState Ns} (n : NearH h h') : h.className = h'.className := by
  funext r
  unfold Handler.className
  cases ho : h.heap[r]? with
  | none => rw [n.noObj ho]
  | some o => obtain ⟨i, hi, _⟩ := n.obj ho; rw [hi]

theorem NearH.length {h h' : Handler CState Ns} (n : NearH h h') : h.heap.length = h'.heap.length := by
  have := congrArg (fun h => h.heap.length) n
  simpa [Handler.unline] using this

theorem NearH.seenAttr {h h' : Handler CState Ns} (n : NearH h h') : h.seenAttr = h'.seenAttr := by
  funext a
  unfold Handler.seenAttr
  rw [n.parts.2.2.1]
  cases h'.attrs.lookup a with
  | none => rfl
  | some r =>
    simp only
    cases ho : h.heap[r]? with
    | none => rw [n.noObj ho]
    | some o =>
      obtain ⟨i, hi, hn⟩ := n.obj ho
      rw [hi]
      simpa using (nearI_iff.1 hn).2.2.1

theorem NearH.setInst {h h' : Handler CState Ns} (n : NearH h h') (r : Nat) {o o' : Obj CState Ns} (hc : o.cls = o'.cls) {i i' : Inst CState}
    (hi : NearI i i') : NearH (h.setInst r o i) (h'.setInst r o' i') := by
  simp only [NearH, Handler.unline, Handler.mk.injEq] at n ⊢
  obtain ⟨h1, h2, h3, h4⟩ := n
  refine ⟨?_, h2, h3, h4⟩
  simp only [Handler.setInst, List.map_set, h1, hc]
  rw [show i.unline = i'.unline from hi]

theorem NearH.setCommand {h h' : Handler CState Ns} (n : NearH h h') (c : Command) (r : Nat) : NearH (h.setCommand c r) (h'.setCommand c r) := by
  have hn := n.className
  obtain ⟨h2, h3, h4, _⟩ := n.parts
  have h1 : h.heap.map (fun o => (⟨o.cls, o.inst.unline⟩ : Obj CState Ns)) = h'.heap.map fun o => ⟨o.cls, o.inst.unline⟩ := congrArg Handler.heap n
  have e : ∀ (h : Handler CState Ns) x y z, ({ heap := h.heap, commands := x, writeOrder := y, attrs := z } : Handler CState Ns).className = h.className :=
    fun _ _ _ _ => rfl
  unfold Handler.setCommand
  simp only [h3, h4]
  cases c.prio with
  | none => simp only [NearH, Handler.unline, h1, h2]
  | some p =>
    simp only
    cases h'.writeOrder.lookup p with
    | none => simp only [NearH, Handler.unline, h1, h2]
    | some l => simp only [NearH, Handler.unline, h1, h2, e, hn]

theorem NearH.create {h h' : Handler CState Ns} (n : NearH h h') (c : Command) : NearH (h.create c).1 (h'.create c).1 := by
  unfold Handler.create
  simp only [n.length]
  apply NearH.setCommand
  have h1 : h.heap.map (fun o => (⟨o.cls, o.inst.unline⟩ : Obj CState Ns)) = h'.heap.map fun o => ⟨o.cls, o.inst.unline⟩ := congrArg Handler.heap n
  obtain ⟨h2, h3, h4, _⟩ := n.parts
  simp only [NearH, Handler.unline, List.map_append, h1, h2, h3, h4]

/-- `resetCommand` on handlers that differ only in line numbers. -/
theorem NearH.reset {h h' : Handler CState Ns} (n : NearH h h') (name : Str) :
    NearH (h.reset name).1 (h'.reset name).1 ∧ (h.reset name).2 = (h'.reset name).2 := by
  unfold Handler.reset
  rw [n.parts.1]
  cases h'.commands.lookup name with
  | none => exact ⟨n, rfl⟩
  | some x =>
    cases x with
    | none => exact ⟨n, rfl⟩
    | some r =>
      simp only
      cases ho : h.heap[r]? with
      | none => rw [n.noObj ho]; exact ⟨n, rfl⟩
      | some o =>
        obtain ⟨i, hi, hn⟩ := n.obj ho
        rw [hi]
        simp only
        have hc := n.create o.cls
        have hl : (h.create o.cls).2 = (h'.create o.cls).2 := n.length
        obtain ⟨h2, h3, h4, _⟩ := hc.parts
        have h1 : (h.create o.cls).1.heap.map (fun o => (⟨o.cls, o.inst.unline⟩ : Obj CState Ns)) =
          (h'.create o.cls).1.heap.map fun o => ⟨o.cls, o.inst.unline⟩ := congrArg Handler.heap hc
        exact ⟨by simp only [NearH, Handler.unline, h1, h2, h3, h4, hl], trivial⟩

/-- `maskAllExcept` on handlers that differ only in line numbers. -/
theorem NearH.mask {h h' : Handler CState Ns} (n : NearH h h') (lst : List Str) : NearH (h.maskAllExcept lst) (h'.maskAllExcept lst) := by
  have h1 : h.heap.map (fun o => (⟨o.cls, o.inst.unline⟩ : Obj CState Ns)) = h'.heap.map fun o => ⟨o.cls, o.inst.unline⟩ := congrArg Handler.heap n
  obtain ⟨h2, h3, h4, _⟩ := n.parts
  simp only [NearH, Handler.unline, Handler.maskAllExcept, h1, h2, h4]

/-- Handlers that differ only in line numbers write the same text. -/
theorem NearH.str {h h' : Handler CState Ns} (n : NearH h h') (hb : h.AllBlind) : h.str = h'.str := by
  unfold Handler.str
  rw [n.parts.2.1]
  congr 1
  apply List.map_congr_left
  intro p _
  congr 1
  apply List.map_congr_left
  intro r _
  cases ho : h.heap[r]? with
  | none => rw [n.noObj ho]
  | some o =>
    obtain ⟨i, hi, hn⟩ := n.obj ho
    rw [hi]
    exact (hb o (List.mem_of_getElem? ho)).str _ _ hn

/-- A line read as line `l` and as line `l'`. -/
theorem NearH.dispatch {h h' : Handler CState Ns} (n : NearH h h') (hb : h.AllBlind) (l l' : Nat) (args : List Str) (line : Str) :
    NearH (h.dispatch l args line).1 (h'.dispatch l' args line).1 ∧
    (h.dispatch l args line).2.map Exc.noLine = (h'.dispatch l' args line).2.map Exc.noLine := by
  cases args with
  | nil => exact ⟨n, rfl⟩
  | cons cmd args =>
    unfold Handler.dispatch
    simp only
    rw [n.parts.1]
    cases h'.commands.lookup cmd with
    | none => exact ⟨n, rfl⟩
    | some x =>
      cases x with
      | none => exact ⟨n, rfl⟩
      | some r =>
        simp only
        cases ho : h.heap[r]? with
        | none => rw [n.noObj ho]; exact ⟨n, rfl⟩
        | some o =>
          obtain ⟨i, hi, hn⟩ := n.obj ho
          rw [hi]
          simp only
          have b := hb o (List.mem_of_getElem? ho)
          have hi0 : NearI { o.inst with currentCmd := cmd, currentLine := line, lineno := l, seen := true }
              { i with currentCmd := cmd, currentLine := line, lineno := l', seen := true } := by
            have := nearI_iff.1 hn
            exact nearI_iff.2 ⟨rfl, rfl, rfl, this.2.2.2.1, this.2.2.2.2.1, this.2.2.2.2.2⟩
          have hs := n.setInst r (o := o) (o' := ⟨o.cls, i⟩) rfl hi0
          rw [hs.seenAttr]
          obtain ⟨h1, h2⟩ := b.parse (Handler.seenAttr (h'.setInst r ⟨o.cls, i⟩
            { i with currentCmd := cmd, currentLine := line, lineno := l', seen := true })) args _ _ hi0
          revert h1 h2
          generalize o.cls.parse _ args { o.inst with currentCmd := cmd, currentLine := line, lineno := l, seen := true } = p
          generalize o.cls.parse _ args { i with currentCmd := cmd, currentLine := line, lineno := l', seen := true } = q
          obtain ⟨j, a⟩ := p
          obtain ⟨j', a'⟩ := q
          intro h1 h2
          cases a with
          | error e =>
            cases a' with
            | error e' => exact ⟨hs.setInst r rfl h1, congrArg some h2⟩
            | ok y => exact h2.elim
          | ok x =>
            cases a' with
            | error e' => exact h2.elim
            | ok y =>
              have h2 : x.map Ns.unline = y.map Ns.unline := h2
              cases x with
              | none =>
                cases y with
                | none => exact ⟨hs.setInst r rfl h1, rfl⟩
                | some y => simp at h2
              | some x =>
                cases y with
                | none => simp at h2
                | some y =>
                  simp only [Option.map_some, Option.some.injEq] at h2
                  refine ⟨hs.setInst r rfl ?_, rfl⟩
                  simp only at h1 ⊢
                  rw [b.list _ _ h1]
                  split
                  · exact b.add _ _ _ _ h2 h1
                  · exact h1

theorem allBlind_setInst {h : Handler CState Ns} (hb : h.AllBlind) {r : Nat} {o : Obj CState Ns} (ho : Command.Blind o.cls) (i : Inst CState) :
    (h.setInst r o i).AllBlind := by
  intro x hx
  rcases List.mem_or_eq_of_mem_set hx with hx | rfl
  · exact hb x hx
  · exact ho

theorem allBlind_dispatch {h : Handler CState Ns} (hb : h.AllBlind) (l : Nat) (args : List Str) (line : Str) : (h.dispatch l args line).1.AllBlind := by
  cases args with
  | nil => exact hb
  | cons cmd args =>
    unfold Handler.dispatch
    simp only
    cases h.commands.lookup cmd with
    | none => exact hb
    | some x =>
      cases x with
      | none => exact hb
      | some r =>
        simp only
        cases ho : h.heap[r]? with
        | none => exact hb
        | some o =>
          simp only
          have b := hb o (List.mem_of_getElem? ho)
          split <;> exact allBlind_setInst (allBlind_setInst hb b _) b _

theorem mem_commandMap {v : Nat} {x : Str × Command} (hx : x ∈ commandMap v) : ∃ y ∈ commandMaps, x ∈ y.2 := by
  unfold commandMap at hx
  cases hl : commandMaps.lookup v with
  | none => rw [hl] at hx; simp at hx
  | some m =>
    rw [hl] at hx
    obtain ⟨l1, l2, h, _⟩ := List.lookup_eq_some_iff.1 hl
    exact ⟨(v, m), by simp [h], by simpa using hx⟩

/-- Every object of a handler of a real version is of a class that only notes the line number. -/
theorem session_allBlind {v : Nat} (hv : Supported v) {h : Handler CState Ns} (hs : Session v h) : h.AllBlind := by
  intro o ho
  obtain ⟨r, hr⟩ := List.mem_iff_getElem?.1 ho
  obtain ⟨⟨n, hn⟩, _⟩ := (session_inv hv hs).objs r o hr
  obtain ⟨y, hy, hx⟩ := mem_commandMap hn
  exact commandMaps_blind y hy _ hx

end Ks
