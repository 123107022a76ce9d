import Verif.Commands.Base
/-!
# Templates without values: the texts they can give

The text of a template without values depends on which of its elementary conditions hold.
-/
namespace Ks

/-- The elementary conditions in a condition. -/
def Cond.atoms : Cond → List Cond
  | .tt => []
  | .not c => c.atoms
  | .and a b => a.atoms ++ b.atoms
  | .or a b => a.atoms ++ b.atoms
  | c => [c]

/-- The value of a condition if exactly the elementary conditions of `t` hold. -/
def Cond.evalBy (t : List Cond) : Cond → Bool
  | .tt => true
  | .not c => !c.evalBy t
  | .and a b => a.evalBy t && b.evalBy t
  | .or a b => a.evalBy t || b.evalBy t
  | c => t.contains c

/-- The text of a piece, if it is literal. -/
def Frag.literal? : Frag → Option Str
  | .lit s => some s
  | _ => none

/-- The text of a template if exactly the elementary conditions of `t` hold. -/
def Out.renderBy (o : Out) (t : List Cond) : Str :=
  (o.map fun x => if x.1.evalBy t then (x.2.map fun f => f.literal?.getD []).flatten else []).flatten

/-- The sublists of a list. -/
def sublistsOf {α : Type} : List α → List (List α)
  | [] => [[]]
  | a :: l => sublistsOf l ++ (sublistsOf l).map (a :: ·)

/-- All pieces of the template are literal, its elementary conditions are among `as`, and whichever of them hold, the text is among `ts`. -/
def Out.gives (o : Out) (as : List Cond) (ts : List Str) : Bool :=
  o.all (fun x => x.2.all fun f => f.literal?.isSome) && o.all (fun x => x.1.atoms.all as.contains) && (sublistsOf as).all fun t => ts.contains (o.renderBy t)

theorem filter_sublistsOf {α : Type} (p : α → Bool) (l : List α) : l.filter p ∈ sublistsOf l := by
  induction l with
  | nil => exact .head _
  | cons a l ih =>
    rw [List.filter_cons]
    unfold sublistsOf
    split
    · exact List.mem_append_right _ (List.mem_map.2 ⟨_, ih, rfl⟩)
    · exact List.mem_append_left _ ih

theorem Cond.evalBy_filter {as : List Cond} (d : Ns) (c : Cond) (h : c.atoms.all as.contains = true) : c.evalBy (as.filter fun a => a.eval d) = c.eval d := by
  induction c with
  | tt => rfl
  | not c ih => simp only [Cond.evalBy, Cond.eval, ih h]
  | and a b iha ihb =>
    simp only [Cond.atoms, List.all_append, Bool.and_eq_true] at h
    simp only [Cond.evalBy, Cond.eval, iha h.1, ihb h.2]
  | or a b iha ihb =>
    simp only [Cond.atoms, List.all_append, Bool.and_eq_true] at h
    simp only [Cond.evalBy, Cond.eval, iha h.1, ihb h.2]
  | _ =>
    simp only [Cond.atoms, List.all_cons, List.all_nil, Bool.and_true, List.contains_eq_mem, decide_eq_true_eq] at h
    simp only [Cond.evalBy, List.contains_eq_mem, List.mem_filter, h, true_and]
    first | exact Bool.decide_eq_true | (rw [Bool.eq_iff_iff]; simp)

theorem Out.gives_sound {o : Out} {as : List Cond} {ts : List Str} (h : o.gives as ts = true) (d : Ns) : o.render d ∈ ts := by
  unfold Out.gives at h
  simp only [Bool.and_eq_true, List.all_eq_true] at h
  obtain ⟨⟨h1, h2⟩, h3⟩ := h
  have e : o.render d = o.renderBy (as.filter fun a => a.eval d) := by
    unfold Out.render Out.renderBy
    congr 1
    refine List.map_congr_left fun x hx => ?_
    unfold pieceText
    rw [Cond.evalBy_filter d x.1 (List.all_eq_true.2 (h2 x hx))]
    split
    · congr 1
      refine List.map_congr_left fun f hf => ?_
      have := h1 x hx f hf
      cases f <;> first | rfl | cases this
    · rfl
  rw [e]
  simpa using h3 _ (filter_sublistsOf _ as)

/-- Whatever the command has read, it writes one of these texts. -/
def Command.WritesAmong (c : Command) (ts : List Str) : Prop := ∀ i, c.str i ∈ ts

end Ks
