import Verif.Commands.PostLogic
import Verif.ArgparseLemmas
/-!
# Data lists

`Command.Lists c`: a class either has no data list, or `parse` returns an object that is put at the
end of the list and carries the number of the line.
-/
namespace Ks

/-- The data object carries the line number `n`. -/
def Numbered (n : Nat) (d : Ns) : Prop := d.getD c!"lineno" = .int n

theorem Ns.getD_ite (c : Prop) [Decidable c] (a b : Ns) (k : Str) : (if c then a else b : Ns).getD k = if c then a.getD k else b.getD k := by
  split <;> rfl

theorem post_condT {n : Nat} {α : Type} {c : M Bool} {a b : M α} {P : Bool → Prop} (hc : M.Post n c P) (ha : M.Post n a fun _ => True)
    (hb : M.Post n b fun _ => True) : M.Post n (M.cond c a b) fun _ => True :=
  post_cond hc ha hb

/-- The end of a program: the object returned carries the line number. -/
macro "numbered" : tactic => `(tactic| first
  | with_reducible apply post_condT
  | (with_reducible apply post_pure
     first
       | exact trivial
       | assumption
       | (subst_vars; unfold Numbered; simp (decide := true) only [Ns.getD_set, Ns.getD_ite, if_true, if_false, ite_self]; done)
       | (unfold Numbered at *; simp (decide := true) only [Ns.getD_set, Ns.getD_ite, if_true, if_false, ite_self]; simp only [*, ite_self]; done)))

structure Command.Lists (c : Command) : Prop where
  one : ∀ i j, c.hasList i = c.hasList j
  add : ∀ d i, (c.addData d i).attrs.data = if c.hasList i then i.attrs.data ++ [d] else i.attrs.data
  value : ∀ h args i r, (c.parse h args i).2 = .ok r → c.hasList i = true → ∃ d, r = some d ∧ (c.name ≠ c!"FC6_MultiPath" → Numbered i.lineno d)
  plain : ∀ h args i r, (c.parse h args i).2 = .ok r → c.hasList i = false → r = none
  empty : c.init.data = []

variable {name : Str} {prio : Option Int} {init : Ns} {str : Ns → Str} {dc : DataCls}

theorem plain_value {parse : List Str → M Unit} {h : Str → Option Bool} {args : List Str} {i : Inst CState} {r : Option Ns}
    (hr : ((plainCmd name prio init parse str).parse h args i).2 = .ok r) : r = none := by
  change (match parse args h i with | (i, .error e) => (i, .error e) | (i, .ok _) => (i, .ok none) : Inst CState × Except Exc (Option Ns)).2 = _ at hr
  match hp : parse args h i with
  | (j, .error e) => rw [hp] at hr; cases hr
  | (j, .ok d) => rw [hp] at hr; cases hr; rfl

theorem plain_lists {parse : List Str → M Unit} : (plainCmd name prio init parse str).Lists :=
  ⟨fun _ _ => rfl, fun _ _ => rfl, fun _ _ _ _ _ h => (by cases h), fun _ _ _ _ hr _ => plain_value hr, rfl⟩

theorem deprecated_lists : (deprecatedCmd name init).Lists := plain_lists

theorem removed_lists : (removedCmd name init).Lists := plain_lists

theorem list_value {parse : List Str → M Ns} {str : List Str → Str} {h : Str → Option Bool} {args : List Str} {i : Inst CState} {r : Option Ns}
    (hr : ((listCmd name prio init dc parse str).parse h args i).2 = .ok r) : ∃ d, r = some d ∧ (parse args h i).2 = .ok d := by
  change (match parse args h i with | (i, .error e) => (i, .error e) | (i, .ok d) => (i, .ok (some d)) : Inst CState × Except Exc (Option Ns)).2 = _ at hr
  match hp : parse args h i with
  | (j, .error e) => rw [hp] at hr; cases hr
  | (j, .ok d) => rw [hp] at hr; cases hr; exact ⟨d, rfl, rfl⟩

theorem list_lists {parse : List Str → M Ns} {str : List Str → Str} (h : ∀ args n, M.Post n (parse args) (Numbered n)) :
    (listCmd name prio init dc parse str).Lists := by
  refine ⟨fun _ _ => rfl, fun _ _ => rfl, fun s args i r hr _ => ?_, fun _ _ _ _ _ h => (by cases h), rfl⟩
  obtain ⟨d, rfl, hd⟩ := list_value hr
  exact ⟨d, rfl, fun _ => (h args i.lineno).run rfl hd⟩

/-- `multipath` does not number its objects. -/
theorem multipath_lists {parse : List Str → M Ns} {str : List Str → Str} : (listCmd c!"FC6_MultiPath" prio init dc parse str).Lists := by
  refine ⟨fun _ _ => rfl, fun _ _ => rfl, fun s args i r hr _ => ?_, fun _ _ _ _ _ h => (by cases h), rfl⟩
  obtain ⟨d, rfl, _⟩ := list_value hr
  exact ⟨d, rfl, fun h => absurd rfl h⟩

theorem all_cons {α : Type} {p : α → Prop} {a : α} {l : List α} (h : p a) (ht : ∀ x ∈ l, p x) : ∀ x ∈ a :: l, p x :=
  List.forall_mem_cons.2 ⟨h, ht⟩

end Ks
