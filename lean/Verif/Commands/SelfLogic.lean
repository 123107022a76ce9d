import Verif.Commands.ReadBackLogic
import Verif.Commands.RuleLogic
/-!
# Commands without data lists read their text back
-/
namespace Ks

/-- Run with a line number `n` on an object whose attributes satisfy `P`, the program keeps the number
and, if it returns a value, that and the attributes satisfy `Q`. -/
def M.Self {α : Type} (n : Nat) (P : Ns → Prop) (m : M α) (Q : α → Ns → Prop) : Prop :=
  ∀ h i, i.lineno = n → P i.attrs.attrs → (m h i).1.lineno = n ∧ ∀ a, (m h i).2 = .ok a → Q a (m h i).1.attrs.attrs

/-- The program does not change the attributes. -/
def M.Quiet {α : Type} (m : M α) : Prop := ∀ h i, (m h i).1.attrs.attrs = i.attrs.attrs

/-- The assignment `self.k = v` does not matter. -/
def SelfStable (P : Ns → Prop) (k : Str) : Prop := (∀ s v, P s → P (s.set k v)) ∧ ∀ s, P s → P (s.without [k])

variable {α β : Type} {n : Nat} {P R : Ns → Prop} {Q : α → Ns → Prop}

theorem self_bind {m : M β} {f : β → M α} {S : β → Ns → Prop} (hm : M.Self n P m S) (hf : ∀ b, M.Self n (S b) (f b) Q) : M.Self n P (m >>= f) Q := by
  intro h i hi hP
  obtain ⟨h1, h2⟩ := hm h i hi hP
  show _ ∧ _
  have hb : (m >>= f) h i = match m h i with
    | (i, .error e) => (i, .error e)
    | (i, .ok a) => f a h i := rfl
  rw [hb]
  generalize hmi : m h i = r at h1 h2
  obtain ⟨j, x⟩ := r
  cases x with
  | error e => exact ⟨h1, fun a e => (nomatch e)⟩
  | ok b => exact hf b h j h1 (h2 b rfl)

theorem self_quiet {m : M β} {F : β → Prop} (hp : M.Post n m F) (hq : m.Quiet) : M.Self n P m fun b s => F b ∧ P s := by
  intro h i hi hP
  refine ⟨?_, fun a ha => ⟨hp.run hi ha, by rw [hq h i]; exact hP⟩⟩
  unfold M.Post at hp
  exact (hp h i hi).1

/-- A step that does not change the attributes. -/
theorem self_q {m : M β} {f : β → M α} {F : β → Prop} (hq : m.Quiet) (hp : M.Post n m F) (hf : ∀ b, F b → M.Self n P (f b) Q) : M.Self n P (m >>= f) Q :=
  self_bind (self_quiet hp hq) fun b => fun h i hi hP => hf b hP.1 h i hi hP.2

theorem self_q_end {m : M β} {F : β → Prop} (hq : m.Quiet) (hp : M.Post n m F) : M.Self n P m fun _ s => P s :=
  fun h i hi hP => ⟨(self_quiet (P := P) hp hq h i hi hP).1, fun a ha => ((self_quiet (P := P) hp hq h i hi hP).2 a ha).2⟩

theorem self_pure {a : α} (h : ∀ s, P s → Q a s) : M.Self n P (pure a) Q := by
  intro _ i hi hP
  exact ⟨hi, fun b hb => by cases hb; exact h _ hP⟩

theorem self_err {msg : Str} : M.Self n P (M.err msg : M α) Q := fun _ _ hi _ => ⟨hi, fun _ e => (nomatch e)⟩

theorem self_set {k : Str} {v : Val} (h : SelfStable P k) : M.Self n P (M.set k v) fun _ => P := fun _ _ hi hP => ⟨hi, fun _ _ => h.1 _ _ hP⟩

theorem self_set_then {k : Str} {v : Val} {f : Unit → M α} (h : SelfStable P k) (hf : ∀ b, M.Self n P (f b) Q) : M.Self n P (M.set k v >>= f) Q :=
  self_bind (self_set h) fun b => hf b

theorem self_del {k : Str} (h : SelfStable P k) : M.Self n P (M.del k) fun _ => P := fun _ _ hi hP => ⟨hi, fun _ _ => h.2 _ hP⟩

theorem self_when {c : Bool} {m : M Unit} (hm : M.Self n P m fun _ => P) : M.Self n P (M.when c m) fun _ => P := by
  unfold M.when
  split
  · exact hm
  · exact self_pure fun _ h => h

theorem self_when_then {c : Bool} {m : M Unit} {f : Unit → M α} (hm : M.Self n P m fun _ => P) (hf : ∀ b, M.Self n P (f b) Q) : M.Self n P (M.when c m >>= f) Q :=
  self_bind (self_when hm) hf

theorem self_ite {c : Prop} [Decidable c] {a b : M α} (ha : M.Self n P a Q) (hb : M.Self n P b Q) : M.Self n P (if c then a else b) Q := by
  split <;> assumption

theorem self_call {m : M Unit} {f : Unit → M α} {R : Ns → Prop} (hm : M.Self n P m fun _ => R) (hf : ∀ b, M.Self n R (f b) Q) : M.Self n P (m >>= f) Q :=
  self_bind hm hf

theorem quiet_self : M.self.Quiet := fun _ _ => rfl
theorem quiet_currentCmd : M.currentCmd.Quiet := fun _ _ => rfl
theorem quiet_usedCmd {a : Str} : (M.usedCmd a).Quiet := fun _ _ => rfl
theorem quiet_seenCmd {a : Str} : (M.seenCmd a).Quiet := by intro h i; unfold M.seenCmd; split <;> rfl
theorem quiet_warn {w : Warn} : (M.warn w).Quiet := fun _ _ => rfl
theorem quiet_lift {x : Except Exc α} : (M.lift x).Quiet := fun _ _ => rfl
theorem quiet_parseKnown {op : OptParser} {args : List Str} : (M.parseKnown op args).Quiet := fun _ _ => rfl
theorem quiet_parseArgs {op : OptParser} {args : List Str} : (M.parseArgs op args).Quiet := fun _ _ => rfl
theorem quiet_failIf {c : Bool} {msg : Str} : (M.failIf c msg).Quiet := by intro h i; unfold M.failIf; split <;> rfl
theorem quiet_assert {c : Bool} : (M.assert c).Quiet := by intro h i; unfold M.assert; split <;> rfl
theorem quiet_pure {a : α} : (pure a : M α).Quiet := fun _ _ => rfl

theorem quiet_bind {m : M β} {f : β → M α} (hm : m.Quiet) (hf : ∀ b, (f b).Quiet) : (m >>= f).Quiet := by
  intro h i
  have hb : (m >>= f) h i = match m h i with
    | (i, .error e) => (i, .error e)
    | (i, .ok a) => f a h i := rfl
  rw [hb]
  have h1 := hm h i
  generalize m h i = r at h1
  obtain ⟨j, x⟩ := r
  cases x with
  | error e => exact h1
  | ok b => exact (hf b h j).trans h1

theorem quiet_failIfM {c : M Bool} {msg : Str} (hc : c.Quiet) : (M.failIfM c msg).Quiet := quiet_bind hc fun _ => quiet_failIf

theorem quiet_cond {c : M Bool} {a b : M α} (hc : c.Quiet) (ha : a.Quiet) (hb : b.Quiet) : (M.cond c a b).Quiet :=
  quiet_bind hc fun x => by cases x <;> assumption

attribute [irreducible] M.Self M.Quiet

theorem M.Self.run {m : M α} (hm : M.Self n P m Q) {h : Str → Option Bool} {i : Inst CState} (hi : i.lineno = n) (hP : P i.attrs.attrs) {a : α}
    (ha : (m h i).2 = .ok a) : Q a (m h i).1.attrs.attrs := by
  unfold M.Self at hm
  exact (hm h i hi hP).2 a ha

/-! ## Options on the command itself -/

theorem get_without {s : Ns} {k k' : Str} (h : k' ≠ k) : (s.without [k]).get k' = s.get k' := by
  unfold Ns.without Ns.get
  induction s with
  | nil => rfl
  | cons x t ih =>
    by_cases hx : x.1 = k
    · have : (List.lookup k' (x :: t)) = List.lookup k' t := by
        rw [List.lookup_cons]
        have : (k' == x.1) = false := by simpa [hx] using h
        rw [this]
      rw [this, List.filter_cons_of_neg (by simp [hx])]
      exact ih
    · rw [List.filter_cons_of_pos (by simp [hx]), List.lookup_cons, List.lookup_cons, ih]

variable {op : OptParser} {init d ns : Ns} {skip : List Str} {args : List Str}

/-- The attributes are those of a new object, except for those in `skip`. -/
def Before (init : Ns) (skip : List Str) (s : Ns) : Prop := ∀ k, k ∉ skip → s.get k = init.get k

theorem before_refl : Before init skip init := fun _ _ => rfl

theorem stable_before {k : Str} (h : k ∈ skip) : SelfStable (Before init skip) k := by
  have hne : ∀ k', k' ∉ skip → k ≠ k' := fun k' hk' e => hk' (e ▸ h)
  refine ⟨fun s v hs k' hk' => ?_, fun s hs k' hk' => ?_⟩
  · rw [Ns.get_set_ne _ _ (hne k' hk'), hs k' hk']
  · rw [get_without (Ne.symm (hne k' hk')), hs k' hk']

theorem stable_parsed {k : Str} (h : k ∈ skip) : SelfStable (ParsedBy op init skip n args) k := by
  have hne : ∀ k', k' ∉ skip → k ≠ k' := fun k' hk' e => hk' (e ▸ h)
  refine ⟨fun s v hs => hs.set h v, fun s hs => ?_⟩
  obtain ⟨ns0, ex, h1, h3⟩ := hs
  exact ⟨ns0, ex, h1, fun k' hk' => by rw [get_without (Ne.symm (hne k' hk')), h3 k' hk']⟩

theorem NsBy.without (h : NsBy op skip n args ns) {k : Str} (hk : k ∈ skip) : NsBy op skip n args (ns.without [k]) := by
  obtain ⟨ns0, ex, h1, h2, h3⟩ := h
  refine ⟨ns0, ex, h1, ?_, fun k' hk' => ?_⟩
  · unfold Ns.without Ns.keys
    exact List.Nodup.sublist (List.Sublist.map _ List.filter_sublist) h2
  · have hne : k' ≠ k := by rintro rfl; exact hk' hk
    rw [get_without hne, h3 k' hk']

theorem self_setTo (h : NsBy op skip n args ns) : M.Self n (Before init skip) (M.setToSelf ns) fun _ => ParsedBy op init skip n args := by
  unfold M.Self
  intro _ i hi hP
  refine ⟨hi, fun _ _ => ?_⟩
  obtain ⟨ns0, ex, h1, h2, h3⟩ := h
  refine ⟨ns0, ex, h1, fun k hk => ?_⟩
  show (setToObj ns i.attrs.attrs).get k = _
  rw [C16_set_to_obj _ _ h2, C16_set_to_obj _ _ (C16_known_keys _ _ _ _ _ h1), h3 k hk, hP k hk]

theorem self_setTo_then {f : Unit → M α} (h : NsBy op skip n args ns) (hf : ∀ b, M.Self n (ParsedBy op init skip n args) (f b) Q) :
    M.Self n (Before init skip) (M.setToSelf ns >>= f) Q :=
  self_bind (self_setTo h) fun b => hf b

/-- No action stores the attribute. -/
def OptParser.never (p : OptParser) (k : Str) : Bool := p.actions.all (fun b => b.dest != k) && p.strings.all fun x => x.2.dest != k
theorem never_known {op : OptParser} {k : Str} (h : op.never k = true) {l : Option Int} {args ex : List Str} {ns : Ns} (hk : op.parseKnown l args = .ok (ns, ex)) :
    ns.get k = none := by
  unfold OptParser.never at h
  simp only [Bool.and_eq_true, List.all_eq_true, bne_iff_ne] at h
  have := parseKnown_holds (P := fun _ => False) (d := k) (fun b hb e => h.1 b hb e)
    (fun b hb e => by
      rcases hb with hb | ⟨n, hb⟩
      · exact absurd e (h.1 b hb)
      · exact absurd e (h.2 _ hb)) (fun b hb e => absurd e (h.1 b hb)) hk
  cases hg : ns.get k with
  | none => rfl
  | some v => exact (this v hg).elim

/-- The assignment of a value that the attribute already has. -/
theorem self_set_same {n : Nat} {op : OptParser} {init : Ns} {skip args : List Str} {k : Str} {v : Val} (hn : op.never k = true) (hi : init.get k = some v) :
    M.Self n (ParsedBy op init skip n args) (M.set k v) fun _ => ParsedBy op init skip n args := by
  unfold M.Self
  intro _ i hi' hP
  refine ⟨hi', fun _ _ => ?_⟩
  obtain ⟨ns, ex, h1, h2⟩ := hP
  refine ⟨ns, ex, h1, fun k' hk' => ?_⟩
  show (i.attrs.attrs.set k v).get k' = _
  by_cases e : k = k'
  · subst e
    rw [Ns.get_set_self, C16_set_to_obj _ _ (C16_known_keys _ _ _ _ _ h1), never_known hn h1, hi]
  · rw [Ns.get_set_ne _ _ e, h2 k' hk']

/-- Close a goal about the namespace. -/
syntax "ns_close" : tactic
macro_rules | `(tactic| ns_close) => `(tactic|
  repeat' (first
      | (with_reducible apply NsBy.ite)
      | (with_reducible refine NsBy.set ?_ (by first | assumption | (apply_assumption; decide)) _)
      | (with_reducible refine NsBy.without ?_ (by first | assumption | (apply_assumption; decide)))
      | (with_reducible apply nsBy_known; assumption)
      | (with_reducible apply nsBy_args; assumption)))

/-- A step that does not change the attributes. -/
syntax "self_quiet" : tactic
macro_rules | `(tactic| self_quiet) => `(tactic| repeat' (first
  | with_reducible apply quiet_self | with_reducible apply quiet_currentCmd
  | with_reducible apply quiet_parseArgs | with_reducible apply quiet_parseKnown
  | with_reducible apply quiet_failIf | with_reducible apply quiet_failIfM | with_reducible apply quiet_cond
  | with_reducible apply quiet_usedCmd | with_reducible apply quiet_seenCmd | with_reducible apply quiet_warn
  | with_reducible apply quiet_lift | with_reducible apply quiet_assert | with_reducible apply quiet_pure))

/-- What is known after such a step. -/
syntax "self_post" : tactic
macro_rules | `(tactic| self_post) => `(tactic| first
  | with_reducible apply post_self | with_reducible apply post_currentCmd
  | with_reducible apply post_parseArgs | with_reducible apply post_parseKnown
  | with_reducible apply post_failIf | with_reducible apply post_warn
  | with_reducible apply post_lift | with_reducible apply post_assert
  | (with_reducible apply post_failIfM; first | with_reducible apply post_usedCmd | with_reducible apply post_seenCmd)
  | (repeat' (first | with_reducible apply post_condT | with_reducible apply post_usedCmd | with_reducible apply post_seenCmd | (with_reducible apply post_pure; exact trivial))))

/-- One step through a program on the object itself. -/
syntax "self_step" : tactic
macro_rules | `(tactic| self_step) => `(tactic| first
  | (intro _)
  | (with_reducible apply self_pure; first | exact fun _ h => h)
  | with_reducible apply self_err
  | (with_reducible refine self_set_then (by first | with_reducible apply stable_before | with_reducible apply stable_parsed
                                             first | assumption | (apply_assumption; decide)) ?_)
  | (with_reducible refine self_set (by first | with_reducible apply stable_before | with_reducible apply stable_parsed
                                        first | assumption | (apply_assumption; decide)))
  | (with_reducible refine self_del (by first | with_reducible apply stable_before | with_reducible apply stable_parsed
                                        first | assumption | (apply_assumption; decide)))
  | (with_reducible refine self_setTo_then (by ns_close) ?_)
  | (with_reducible refine self_setTo (by ns_close))
  | with_reducible apply self_when_then
  | with_reducible apply self_when
  | (with_reducible refine self_q (by self_quiet; done) (by self_post) ?_)
  | (with_reducible refine self_q_end (by self_quiet; done) (by self_post))
  | with_reducible apply self_ite)

/-! ## The text of the object -/

/-- What the command reads back from its text after one line. -/
structure Command.SelfReadsBack (c : Command) (s : Sheet) (base : Ns) : Prop where
  /-- `base` holds the values after a line without options -/
  bare : ∀ h args i x, i.attrs.attrs = c.init.attrs → (∀ a ∈ args, startsWith a c!"-" = false) → (c.parse h args i).2 = .ok x →
    ∀ k, k ∉ s.skip → (selfOf (c.parse h args i).1).get k = base.get k
  text : ∀ h args i x, i.attrs.attrs = c.init.attrs → (c.parse h args i).2 = .ok x → s.Plain (selfOf (c.parse h args i).1) →
    ∃ words, shlexSplit (c.str (c.parse h args i).1) true = .ok words ∧
      ((words = [] ∧ ∀ g ∈ s.given, g.eval (selfOf (c.parse h args i).1) = false) ∨ ∃ name ∈ s.names, ∃ args', words = name :: args' ∧
        ∀ h' i' x', i'.attrs.attrs = c.init.attrs → (c.parse h' args' i').2 = .ok x' →
          s.Agree base (selfOf (c.parse h args i).1) (selfOf (c.parse h' args' i').1))

theorem selfOf_get {i : Inst CState} {k : Str} (hs : c!"seen" ∈ skip) (hk : k ∉ skip) : (selfOf i).get k = i.attrs.attrs.get k := by
  unfold selfOf Ns.get
  rw [List.lookup_cons]
  have : (k == c!"seen") = false := by
    rw [beq_eq_false_iff_ne]
    rintro rfl
    exact hk hs
  rw [this]

theorem ParsedBy.self {i : Inst CState} (hs : c!"seen" ∈ skip) (h : ParsedBy op init skip n args i.attrs.attrs) : ParsedBy op init skip n args (selfOf i) := by
  obtain ⟨ns, ex, h1, h2⟩ := h
  exact ⟨ns, ex, h1, fun k hk => by rw [selfOf_get hs hk, h2 k hk]⟩

theorem plainCmd_parse {name : Str} {prio : Option Int} {init : Ns} {parse : List Str → M Unit} {str : Ns → Str} {h : Str → Option Bool} {args : List Str} {i : Inst CState}
    {x : Option Ns} (hx : ((plainCmd name prio init parse str).parse h args i).2 = .ok x) :
    (parse args h i).2 = .ok () ∧ ((plainCmd name prio init parse str).parse h args i).1 = (parse args h i).1 := by
  simp only [plainCmd] at hx ⊢
  generalize parse args h i = r at hx ⊢
  obtain ⟨j, y⟩ := r
  cases y with
  | error e => cases hx
  | ok y => exact ⟨rfl, rfl⟩

theorem plain_readsBack {name : Str} {prio : Option Int} {init : Ns} {parse : List Str → M Unit} {str : Ns → Str}
    (s : Sheet) {o : Out} (hparse : ∀ args n, M.Self n (Before init s.skip) (parse args) fun _ => ParsedBy op init s.skip n args)
    (hs : c!"seen" ∈ s.skip) (hstr : ∀ d, s.Plain d → str d = o.render d) (hc : s.check op init o = true) :
    (plainCmd name prio init parse str).SelfReadsBack s (setToObj op.defaults init) := by
  have key : ∀ h args i x, i.attrs.attrs = init → ((plainCmd name prio init parse str).parse h args i).2 = .ok x →
      ParsedBy op init s.skip i.lineno args (selfOf ((plainCmd name prio init parse str).parse h args i).1) := by
    intro h args i x hi hx
    obtain ⟨h1, h2⟩ := plainCmd_parse hx
    rw [h2]
    exact ((hparse args i.lineno).run rfl (by rw [hi]; exact before_refl) h1).self hs
  refine ⟨fun h args i x hi ha hx => base_obj hc ha (key h args i x hi hx), fun h args i x hi hx hp => ?_⟩
  obtain ⟨words, h1, h2⟩ := readsBack_obj hc (key h args i x hi hx) hp
  refine ⟨words, ?_, ?_⟩
  · rw [← hstr _ hp] at h1; exact h1
  · rcases h2 with h2 | ⟨nm, hn, args', e, h2⟩
    · exact .inl h2
    · exact .inr ⟨nm, hn, args', e, fun h' i' x' hi' hx' => h2 i'.lineno _ (key h' args' i' x' hi' hx')⟩

end Ks
