import Verif.Commands.Maps
import Verif.Commands.ListLogic
import Verif.Commands.LineSpec
import Lean.Elab.Tactic.Basic
/-!
# What the first line of a command does: how it is checked
-/

open Lean Elab Tactic Meta in
/-- Close an equation by `Eq.refl` and leave the comparison of its sides to the kernel. -/
elab "kernel_rfl" : tactic => liftMetaTactic fun g => do
  let t ← instantiateMVars (← g.getType)
  match t.getAppFnArgs with
  | (``Eq, #[α, a, _]) =>
    let u ← getLevel α
    g.assign (mkApp2 (mkConst ``Eq.refl [u]) α a)
    return []
  | _ => throwError "not an equation"

namespace Ks

/-- What `parse` made: the data object, or else the attributes of the command. -/
def outcome (p : Inst CState × Except Exc (Option Ns)) : Option Ns :=
  match p.2 with
  | .ok (some d) => some d
  | .ok none => some p.1.attrs.attrs
  | .error _ => none

/-- A new object when its first line is read. -/
def firstInst (c : Command) (n line : Str) (l : Nat) : Inst CState :=
  { currentCmd := n, currentLine := line, lineno := l, seen := true, attrs := c.init }

/-- Nothing was seen; `mount` and `reqpart` may not exist. -/
def quiet (b b' : Option Bool) : Str → Option Bool :=
  fun m => if m = c!"mount" then b else if m = c!"reqpart" then b' else some false

/-- Not seen. -/
def Off (b : Option Bool) : Prop := b = none ∨ b = some false

/-- The default row. -/
def noLine : LineSpec := ⟨[], fun _ => [], none⟩

/-- The base line makes the object `d`. -/
def Command.FirstBase (c : Command) (n : Str) (base : List Str) (d : Nat → Ns) : Prop :=
  ∀ (b b' : Option Bool), Off b → Off b' → ∀ (line : Str) (l : Nat), outcome (c.parse (quiet b b') base (firstInst c n line l)) = some (d l)

/-- The base line does this to the attributes: for a data object, it has these values; the attributes of a command
change in these alone. -/
def Command.FirstStart (c : Command) (d : Nat → Ns) (s : List (Str × Val)) : Prop :=
  ∀ l, (∀ i, c.hasList i = true) ∧ (∀ p ∈ s, (d l).get p.1 = some p.2) ∨ (∀ i, c.hasList i = false) ∧ d l = assigned s c.init.attrs

/-- The line with these further arguments does what its specification says. -/
def Command.FirstLine (c : Command) (n : Str) (base : List Str) (d : Nat → Ns) (r : LineSpec) : Prop :=
  ∀ (b b' : Option Bool), Off b → Off b' → ∀ (x : Str), x ≠ [] → ∀ (line : Str) (l : Nat),
    outcome (c.parse (quiet b b') (base ++ r.args x) (firstInst c n line l)) = r.sets.map fun f => assigned (f x) (d l)

/-- The elements of a list at these places include all for the version. -/
def allChecked {α : Type} (vs : α → Versions) (l : List α) (is : List Nat) (v : Nat) : Bool :=
  (List.range l.length).all fun i => match l[i]? with
    | some r => !(vs r).has v || is.contains i
    | none => true

theorem of_allChecked {α : Type} {vs : α → Versions} {l : List α} {is : List Nat} {v : Nat} (h : allChecked vs l is v = true) {P : α → Prop} (d : α)
    (hp : ∀ i ∈ is, P (l.getD i d)) : ∀ r ∈ l, (vs r).has v = true → P r := by
  intro r hr hv
  obtain ⟨i, hi, rfl⟩ := List.mem_iff_getElem.1 hr
  have := List.all_eq_true.1 h i (by simpa using hi)
  simp only [List.getElem?_eq_getElem hi, hv, Bool.not_true, Bool.false_or] at this
  have := hp i (by simpa using this)
  simpa [List.getD, List.getElem?_eq_getElem hi] using this

/-- The class obeys the specification in the version. -/
def Command.Obeys (c : Command) (e : CommandLines) (v : Nat) : Prop :=
  ∃ d, c.FirstBase e.cmd e.base d ∧ (∀ s ∈ e.start, s.1.has v = true → c.FirstStart d s.2) ∧ ∀ r ∈ e.lines, r.versions.has v = true → c.FirstLine e.cmd e.base d r

theorem obeys_of {c : Command} {e : CommandLines} {vs : List Nat} (d : Nat → Ns) (js is : List Nat) (hb : c.FirstBase e.cmd e.base d)
    (hs : ∀ j ∈ js, c.FirstStart d (e.start.getD j ([], [])).2) (hl : ∀ i ∈ is, c.FirstLine e.cmd e.base d (e.lines.getD i noLine))
    (hc : vs.all (fun v => allChecked (·.1) e.start js v && allChecked (·.versions) e.lines is v) = true) : ∀ v, vs.contains v = true → c.Obeys e v := by
  intro v hv
  have := List.all_eq_true.1 hc v (by simpa using hv)
  rw [Bool.and_eq_true] at this
  exact ⟨d, hb, of_allChecked this.1 (P := fun s => c.FirstStart d s.2) ([], []) hs, of_allChecked this.2 noLine hl⟩

/-- The versions of the base line. -/
def CommandLines.versions (e : CommandLines) (v : Nat) : Bool := e.start.any fun s => s.1.has v

open Cmd in
/-- The command maps give classes to the command that obey the specification. -/
def CommandLines.Obeyed (e : CommandLines) : Prop :=
  ∀ y ∈ commandMaps, e.versions y.1 = true → ∀ c, y.2.lookup e.cmd = some c → c.Obeys e y.1

end Ks
