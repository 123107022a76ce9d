import Verif.Commands.SelfLogic
import Verif.Commands.Ignoredisk
/-!
# `ignoredisk --interactive` clears a list that is empty already

The setter after `--interactive` (`commands/ignoredisk.py:133-134`) writes an attribute that an option stores.
It does not matter: at that point the attribute is false and a list.
-/
namespace Ks

variable {α : Type} {n : Nat} {P : Ns → Prop} {Q : α → Ns → Prop}

section
local instance : Inhabited Unit := ⟨()⟩
attribute [local semireducible] M.Self

/-- `self` has the attributes. -/
theorem self_self_then {f : Ns → M α} (hf : ∀ b, M.Self n (fun s => P s ∧ ∀ k, k ≠ c!"seen" → b.get k = s.get k) (f b) Q) : M.Self n P (M.self >>= f) Q := by
  intro h i hi hP
  refine hf (selfOf i) h i hi ⟨hP, fun k hk => ?_⟩
  have hk : (k == c!"seen") = false := by simpa using hk
  show List.lookup k ((c!"seen", _) :: _) = _
  rw [List.lookup_cons, hk]; rfl

theorem self_when_if {c : Bool} {m : M Unit} (hm : c = true → M.Self n P m fun _ => R) (hs : ∀ s, P s → R s) : M.Self n P (M.when c m) fun _ => R := by
  cases c
  · exact self_pure hs
  · exact hm rfl

theorem self_pre {P' : Ns → Prop} {m : M α} (hm : M.Self n P m Q) (h : ∀ s, P' s → P s) : M.Self n P' m Q :=
  fun hd i hi hP => hm hd i hi (h _ hP)

theorem self_hyp {F : Prop} {m : M α} (hm : F → M.Self n P m Q) (h : ∀ s, P s → F) : M.Self n P m Q :=
  fun hd i hi hP => hm (h _ hP) hd i hi hP

end

/-- The options that store the attribute take one word and split it at commas. -/
def OptParser.commaDest (p : OptParser) (d : Str) : Bool :=
  (p.actions ++ p.strings.map (·.2)).all fun b => b.dest != d || (b.kind == .store && b.nargs == .one && b.ty == .comma && b.opts != [] && b.default == .none)

theorem comma_known {op : OptParser} {d : Str} (hp : op.commaDest d = true) {l : Option Int} {args ex : List Str} {ns : Ns} (h : op.parseKnown l args = .ok (ns, ex)) :
    ns.Holds d fun v => v = .none ∨ ∃ xs, v = .list xs := by
  have hpp : ∀ b, op.Has b → b.dest = d → b.kind = .store ∧ b.nargs = .one ∧ b.ty = .comma ∧ b.opts ≠ [] ∧ b.default = .none := by
    intro b hb e
    have hb : b ∈ op.actions ++ op.strings.map (·.2) := by
      rcases hb with hb | ⟨n, hn⟩
      · simp [hb]
      · exact List.mem_append_right _ (List.mem_map.2 ⟨_, hn, rfl⟩)
    have := List.all_eq_true.1 hp b hb
    simpa [e, and_assoc] using this
  have hval : ∀ (b : Action) (s : Str) (v : Val), b.ty = .comma → getValue l b s = .ok v → v = .none ∨ ∃ xs, v = .list xs := by
    intro b s v hty hv
    simp only [getValue, Action.type, hty, Ty.run, tyComma] at hv
    cases hv; exact .inr ⟨_, rfl⟩
  refine parseKnown_holds (fun b hb e => .inl (hpp b (.inl hb) e).2.2.2.2) ?_ ?_ h
  · intro b hb e xs v hx hv o _
    obtain ⟨h1, h2, h3, h4, _⟩ := hpp b hb e
    rw [actVal, h1]
    have hx := hx h2 h4
    match xs, hx with
    | [s], _ =>
      simp only [getValues, h4, if_false, h2, bind, Except.bind, pure, Except.pure] at hv
      split at hv
      · cases hv
      · rename_i w hw
        split at hv
        · cases hv
        · cases hv; exact hval b _ v h3 hw
  · intro b hb e s v hs hv
    exact hval b s v (hpp b (.inl hb) e).2.2.1 hv

theorem get_set_same {s : Ns} {k : Str} {v : Val} (h : s.get k = some v) (k' : Str) : (s.set k v).get k' = s.get k' := by
  by_cases e : k = k'
  · subst e; rw [Ns.get_set_self, h]
  · rw [Ns.get_set_ne _ _ e]

/-- The attribute is a list. -/
theorem parsed_list {op : OptParser} {init s : Ns} {args skip : List Str} {d : Str} (hp : op.commaDest d = true) (hi : init.get d = some (.list [])) (hd : d ∉ skip)
    (h : ParsedBy op init skip n args s) : ∃ xs, s.get d = some (.list xs) := by
  obtain ⟨ns, ex, h1, h2⟩ := h
  rw [h2 d hd, C16_set_to_obj _ _ (C16_known_keys _ _ _ _ _ h1)]
  have := comma_known hp h1
  cases hg : ns.get d with
  | none => exact ⟨_, hi⟩
  | some v =>
    rcases this v hg with rfl | ⟨xs, rfl⟩
    · exact ⟨_, hi⟩
    · exact ⟨_, rfl⟩

namespace Cmd

theorem RHEL6_IgnoreDisk.selfed (k : Info) (init : Ns) (args : List Str) (n : Nat) (skip : List Str) (_ : ∀ k ∈ ([] : List Str), k ∈ skip)
    (hp : k.op.commaDest c!"ignoredisk" = true) (hi : init.get c!"ignoredisk" = some (.list [])) (hd : c!"ignoredisk" ∉ skip) :
    M.Self n (Before init skip) (RHEL6_IgnoreDisk.parse k args) fun _ => ParsedBy k.op init skip n args := by
  unfold RHEL6_IgnoreDisk.parse
  have h0 : M.Self n (Before init skip) (FC3_IgnoreDisk.parse k args) fun _ => ParsedBy k.op init skip n args := by
    unfold FC3_IgnoreDisk.parse
    repeat' self_step
  refine self_call h0 fun _ => self_self_then fun b => ?_
  extract_lets h1 h2 h3
  refine self_q quiet_failIf post_failIf fun _ hf => ?_
  refine self_bind (self_when_if (R := ParsedBy k.op init skip n args) (fun ht => ?_) fun s h => h.1) fun _ => self_pure fun _ h => h
  have hf : (b.getD c!"ignoredisk").truthy = false := by
    have hf : h3 = 1 := by simpa using hf
    by_cases e : (b.getD c!"ignoredisk").truthy = true
    · simp only [h3, h2, h1, ht, e, if_true] at hf
      split at hf <;> simp at hf
    · simpa using e
  unfold M.Self
  rintro hh i hl ⟨hP, hb⟩
  refine ⟨hl, fun _ _ => ?_⟩
  show ParsedBy _ _ _ _ _ (i.attrs.attrs.set c!"ignoredisk" (.list []))
  obtain ⟨xs, hx⟩ := parsed_list hp hi hd hP
  have hx' : b.get c!"ignoredisk" = some (.list xs) := by rw [hb _ (by decide), hx]
  have : xs = [] := by
    rw [Ns.getD, hx'] at hf
    cases xs with
    | nil => rfl
    | cons a t => simp [Val.truthy] at hf
  subst this
  obtain ⟨ns, ex, h1, h2⟩ := hP
  exact ⟨ns, ex, h1, fun k' hk' => by rw [get_set_same hx, h2 k' hk']⟩

end Cmd
end Ks
