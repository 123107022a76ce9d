import Verif.Commands.NormalLogic
import Verif.Commands.SelfLogic
/-!
# Commands without data lists accept the text they write

`M.Sims P m m' R`: two objects start with attributes related by `P`. Whenever `m` succeeds on the first one, `m'` succeeds
on the second one, if no command that excludes others has been used, and the results and attributes are related by `R`.
-/
namespace Ks

/-- No command that excludes others is used. -/
def Clears (h : Str → Option Bool) : Prop :=
  (∀ a ∈ ([c!"partition", c!"raid", c!"volgroup", c!"logvol", c!"autopart"] : List Str), h a = some false) ∧
    ∀ a ∈ ([c!"mount", c!"reqpart"] : List Str), h a ≠ some true

def M.Sims {α β : Type} (P : Ns → Ns → Prop) (m : M α) (m' : M β) (R : α → β → Ns → Ns → Prop) : Prop :=
  ∀ h i a, (m h i).2 = .ok a → ∀ h' i', Clears h' → P i.attrs.attrs i'.attrs.attrs →
    ∃ b, (m' h' i').2 = .ok b ∧ R a b (m h i).1.attrs.attrs (m' h' i').1.attrs.attrs

/-- Both objects are new. -/
def Fresh (init s s' : Ns) : Prop := s = init ∧ s' = init

variable {α β γ δ : Type} {P Q : Ns → Ns → Prop} {X : List Str}

theorem sims_bind {S : α → β → Ns → Ns → Prop} {R : γ → δ → Ns → Ns → Prop} {m : M α} {m' : M β} {f : α → M γ} {f' : β → M δ}
    (hm : M.Sims P m m' S) (hf : ∀ a b, M.Sims (S a b) (f a) (f' b) R) : M.Sims P (m >>= f) (m' >>= f') R := by
  intro h i a ha h' i' hc hP
  simp only [bind] at ha ⊢
  match hx : m h i with
  | (j, .error e) => rw [hx] at ha; cases ha
  | (j, .ok x) =>
    rw [hx] at ha
    obtain ⟨y, hy, hxy⟩ := hm h i x (by rw [hx]) h' i' hc hP
    match hx' : m' h' i' with
    | (j', .error e) => rw [hx'] at hy; cases hy
    | (j', .ok y') =>
      rw [hx'] at hy
      injection hy with hy
      subst hy
      rw [hx, hx'] at hxy
      exact hf x y' h j a ha h' j' hc hxy

/-- A call of another method. -/
theorem sims_call {R : γ → δ → Ns → Ns → Prop} {m m' : M Unit} {f : Unit → M γ} {f' : Unit → M δ} (hm : M.Sims P m m' fun _ _ => Q)
    (hf : M.Sims Q (f ()) (f' ()) R) : M.Sims P (m >>= f) (m' >>= f') R :=
  sims_bind hm fun _ _ => hf

/-- A step that does not change the attributes. -/
theorem sims_q {S : α → β → Prop} {R : γ → δ → Ns → Ns → Prop} {m : M α} {m' : M β} {f : α → M γ} {f' : β → M δ} (hm : M.Sims P m m' fun a b s s' => S a b ∧ P s s')
    (hf : ∀ a b, S a b → M.Sims P (f a) (f' b) R) : M.Sims P (m >>= f) (m' >>= f') R :=
  sims_bind hm fun a b h i x hx h' i' hc hP => hf a b hP.1 h i x hx h' i' hc hP.2

theorem sims_pure {R : α → β → Ns → Ns → Prop} {a : α} {b : β} (h : ∀ s s', P s s' → R a b s s') : M.Sims P (pure a) (pure b) R := by
  intro _ i x hx _ i' _ hP
  injection hx with hx
  subst hx
  exact ⟨b, rfl, h _ _ hP⟩

theorem sims_unit : M.Sims P (pure ()) (pure ()) fun _ _ => P := sims_pure fun _ _ h => h

theorem sims_failIf {c c' : Bool} {msg : Str} (hc : c = c') : M.Sims P (M.failIf c msg) (M.failIf c' msg) fun _ _ => P := by
  subst hc
  cases c with
  | false => exact sims_unit
  | true => intro h i a ha; cases ha

/-- The check is passed anyway. -/
theorem sims_failIf_false {c c' : Bool} {msg : Str} (hc : c' = false) : M.Sims P (M.failIf c msg) (M.failIf c' msg) fun _ _ => P := by
  subst hc
  cases c with
  | false => exact sims_unit
  | true => intro h i a ha; cases ha

theorem sims_assert {c c' : Bool} (hc : c = c') : M.Sims P (M.assert c) (M.assert c') fun _ _ => P := by
  subst hc
  cases c with
  | false => intro h i a ha; cases ha
  | true => exact sims_unit

theorem sims_when {c c' : Bool} {m m' : M Unit} (hc : c = c') (hm : M.Sims P m m' fun _ _ => P) : M.Sims P (M.when c m) (M.when c' m') fun _ _ => P := by
  subst hc
  cases c with
  | false => exact sims_unit
  | true => exact hm

theorem sims_when_warn {c c' : Bool} {w w' : Warn} : M.Sims P (M.when c (M.warn w)) (M.when c' (M.warn w')) fun _ _ => P := by
  intro _ _ _ _ _ _ _ hP
  refine ⟨(), ?_, ?_⟩
  · cases c' <;> rfl
  · cases c <;> cases c' <;> exact hP

theorem sims_lift {x y : Except Exc α} (h : x = y) : M.Sims P (M.lift x) (M.lift y) fun a b s s' => a = b ∧ P s s' := by
  subst h
  intro _ _ a ha _ _ _ hP
  exact ⟨a, ha, rfl, hP⟩

theorem sims_bind_lift {R : γ → δ → Ns → Ns → Prop} {x y : Except Exc α} {f : α → M γ} {f' : α → M δ} (hx : x = y) (hf : ∀ a, M.Sims P (f a) (f' a) R) :
    M.Sims P (M.lift x >>= f) (M.lift y >>= f') R :=
  sims_q (sims_lift hx) fun a _ e => e ▸ hf a

theorem sims_err {R : α → β → Ns → Ns → Prop} {msg : Str} {m' : M β} : M.Sims P (M.err msg : M α) m' R := by
  intro h i a ha; cases ha

theorem sims_ite {R : α → β → Ns → Ns → Prop} {c c' : Prop} [Decidable c] [Decidable c'] {a b : M α} {a' b' : M β} (hc : c ↔ c') (ha : c → M.Sims P a a' R)
    (hb : ¬ c → M.Sims P b b' R) : M.Sims P (if c then a else b) (if c' then a' else b') R := by
  by_cases h : c
  · rw [if_pos h, if_pos (hc.1 h)]; exact ha h
  · rw [if_neg h, if_neg fun e => h (hc.2 e)]; exact hb h

/-! ## The object itself -/

theorem selfOf_alike {i i' : Inst CState} (h : Alike X i.attrs.attrs i'.attrs.attrs) : Alike (c!"seen" :: X) (selfOf i) (selfOf i') := by
  intro k hk
  rw [selfOf_get (skip := [c!"seen"]) (by simp) (by simp at hk ⊢; exact hk.1), selfOf_get (skip := [c!"seen"]) (by simp) (by simp at hk ⊢; exact hk.1)]
  exact h k (by simp at hk ⊢; exact hk.2)

theorem sims_self : M.Sims (Alike X) M.self M.self fun d d' s s' => Alike (c!"seen" :: X) d d' ∧ Alike X s s' := by
  intro _ i a ha _ i' _ hP
  have e : selfOf i = a := by injection ha
  exact ⟨selfOf i', rfl, by rw [← e]; exact selfOf_alike hP, hP⟩

theorem sims_bind_self {R : γ → δ → Ns → Ns → Prop} {f : Ns → M γ} {f' : Ns → M δ} (hf : ∀ d d', Alike (c!"seen" :: X) d d' → M.Sims (Alike X) (f d) (f' d') R) :
    M.Sims (Alike X) (M.self >>= f) (M.self >>= f') R :=
  sims_q sims_self hf

theorem sims_set {k : Str} {v v' : Val} (hv : v = v') : M.Sims (Alike X) (M.set k v) (M.set k v') fun _ _ => Alike X :=
  fun _ _ _ _ _ _ _ hP => ⟨(), rfl, alike_set hP hv⟩

theorem sims_set_drop {k : Str} {v v' : Val} (hv : v = v') : M.Sims (Alike (k :: X)) (M.set k v) (M.set k v') fun _ _ => Alike X :=
  fun _ _ _ _ _ _ _ hP => ⟨(), rfl, alike_set_drop hP hv⟩

theorem alike_without {d d' : Ns} {k : Str} (h : Alike X d d') : Alike X (d.without [k]) (d'.without [k]) := by
  intro k' hk'
  by_cases e : k' = k
  · subst e
    have : ∀ s : Ns, (s.without [k']).get k' = none := by
      intro s
      refine get_none_of_keys fun hm => ?_
      obtain ⟨x, hx, e⟩ := List.mem_map.1 hm
      have := (List.mem_filter.1 hx).2
      simp [e] at this
    rw [this, this]
  · rw [get_without e, get_without e, h k' hk']

/-! ## The option parser -/

variable {op : OptParser} {init : Ns} {E : List Str → List Str} {args args' : List Str}

theorem sims_parseKnown (h : Follows op init X E args args') :
    M.Sims P (M.parseKnown op args) (M.parseKnown op args') fun r r' s s' => (Twin X init r.1 r'.1 ∧ r'.2 = E r.2) ∧ P s s' := by
  intro _ i a ha _ i' _ hP
  obtain ⟨ns', h1, h2⟩ := h (some i.lineno) (some i'.lineno) a.1 a.2 ha
  exact ⟨(ns', E a.2), h1, ⟨h2, rfl⟩, hP⟩

theorem sims_parseArgs (h : Follows op init X E args args') (hE : E [] = []) :
    M.Sims P (M.parseArgs op args) (M.parseArgs op args') fun r r' s s' => Twin X init r r' ∧ P s s' := by
  intro hh i a ha hh' i' _ hP
  have ha : op.parseArgs (some i.lineno) args = .ok a := ha
  unfold OptParser.parseArgs at ha
  split at ha
  · cases ha
  · rename_i ns ex hk
    split at ha
    · cases ha
    · rename_i hex
      injection ha with ha
      subst ha
      obtain ⟨ns', h1, h2⟩ := h (some i.lineno) (some i'.lineno) ns ex hk
      refine ⟨ns', ?_, h2, hP⟩
      have hex' : ex = [] := by simpa using hex
      rw [hex', hE] at h1
      show op.parseArgs (some i'.lineno) args' = _
      unfold OptParser.parseArgs
      rw [h1]
      rfl

theorem sims_bind_known {R : γ → δ → Ns → Ns → Prop} {f : Ns × List Str → M γ} {f' : Ns × List Str → M δ} (h : Follows op init X E args args')
    (hf : ∀ ns ns' ex, Twin X init ns ns' → M.Sims P (f (ns, ex)) (f' (ns', E ex)) R) : M.Sims P (M.parseKnown op args >>= f) (M.parseKnown op args' >>= f') R :=
  sims_q (sims_parseKnown h) fun r r' hr => by
    obtain ⟨ns, ex⟩ := r
    obtain ⟨ns', ex'⟩ := r'
    obtain ⟨h1, h2⟩ := hr
    simp only at h1 h2
    subst h2
    exact hf ns ns' ex h1

theorem sims_bind_args {R : γ → δ → Ns → Ns → Prop} {f : Ns → M γ} {f' : Ns → M δ} (h : Follows op init X E args args') (hE : E [] = [])
    (hf : ∀ ns ns', Twin X init ns ns' → M.Sims P (f ns) (f' ns') R) : M.Sims P (M.parseArgs op args >>= f) (M.parseArgs op args' >>= f') R :=
  sims_q (sims_parseArgs h hE) hf

theorem sims_setTo {ns ns' : Ns} (h : Twin X init ns ns') : M.Sims (Fresh init) (M.setToSelf ns) (M.setToSelf ns') fun _ _ => Alike X := by
  intro _ i _ _ _ i' _ hP
  refine ⟨(), rfl, ?_⟩
  show Alike X (setToObj ns i.attrs.attrs) (setToObj ns' i'.attrs.attrs)
  rw [hP.1, hP.2]
  exact h.obj

theorem twin_set {ns ns' : Ns} (h : Twin X init ns ns') (k : Str) {v v' : Val} (hv : v = v') : Twin X init (ns.set k v) (ns'.set k v') := by
  subst hv
  obtain ⟨h1, h2, h3⟩ := h
  have n1 := Ns.nodup_set h1 k v
  have n2 := Ns.nodup_set h2 k v
  refine ⟨n1, n2, fun k' hk' => ?_⟩
  have := h3 k' hk'
  rw [C16_set_to_obj _ _ h1, C16_set_to_obj _ _ h2] at this
  rw [C16_set_to_obj _ _ n1, C16_set_to_obj _ _ n2, Ns.get_set, Ns.get_set]
  by_cases e : k = k'
  · rw [if_pos e, if_pos e]
  · rw [if_neg e, if_neg e]; exact this

theorem without_nodup {ns : Ns} (h : ns.keys.Nodup) (k : Str) : (ns.without [k]).keys.Nodup := by
  unfold Ns.without Ns.keys
  exact List.Nodup.sublist (List.Sublist.map _ List.filter_sublist) h

theorem twin_without {ns ns' : Ns} (h : Twin X init ns ns') (k : Str) : Twin X init (ns.without [k]) (ns'.without [k]) := by
  obtain ⟨h1, h2, h3⟩ := h
  have n1 := without_nodup h1 k
  have n2 := without_nodup h2 k
  refine ⟨n1, n2, fun k' hk' => ?_⟩
  have := h3 k' hk'
  rw [C16_set_to_obj _ _ h1, C16_set_to_obj _ _ h2] at this
  rw [C16_set_to_obj _ _ n1, C16_set_to_obj _ _ n2]
  by_cases e : k' = k
  · subst e
    have : ∀ s : Ns, (s.without [k']).get k' = none := by
      intro s
      refine get_none_of_keys fun hm => ?_
      obtain ⟨x, hx, e⟩ := List.mem_map.1 hm
      have := (List.mem_filter.1 hx).2
      simp [e] at this
    rw [this, this]
  · rw [get_without e, get_without e]
    exact this

theorem twin_ite {c c' : Prop} [Decidable c] [Decidable c'] {a a' b b' : Ns} (hc : c ↔ c') (ha : c → Twin X init a a') (hb : ¬ c → Twin X init b b') :
    Twin X init (if c then a else b) (if c' then a' else b') := by
  by_cases h : c
  · rw [if_pos h, if_pos (hc.1 h)]; exact ha h
  · rw [if_neg h, if_neg fun e => h (hc.2 e)]; exact hb h

/-! ## Other commands -/

theorem sims_seen {a : Str} {msg : Str} (ha : a ∈ ([c!"partition", c!"raid", c!"volgroup", c!"logvol", c!"autopart"] : List Str)) :
    M.Sims P (M.failIfM (M.seenCmd a) msg) (M.failIfM (M.seenCmd a) msg) fun _ _ => P := by
  intro h i x hx h' i' hc hP
  have e : M.failIfM (M.seenCmd a) msg h' i' = (i', .ok ()) := by simp only [M.failIfM, bind, M.seenCmd, hc.1 a ha]; rfl
  have e' : (M.failIfM (M.seenCmd a) msg h i).1 = i := by
    simp only [M.failIfM, bind, M.seenCmd]
    cases h a with
    | none => rfl
    | some b => cases b <;> rfl
  refine ⟨(), by rw [e], ?_⟩
  rw [e, e']
  exact hP

theorem sims_used {a : Str} {msg : Str} (ha : a ∈ ([c!"mount", c!"reqpart"] : List Str)) :
    M.Sims P (M.failIfM (M.usedCmd a) msg) (M.failIfM (M.usedCmd a) msg) fun _ _ => P := by
  intro h i x hx h' i' hc hP
  have hf : (h' a == some true) = false := by simpa using hc.2 a ha
  have e : M.failIfM (M.usedCmd a) msg h' i' = (i', .ok ()) := by simp only [M.failIfM, bind, M.usedCmd, hf]; rfl
  have e' : (M.failIfM (M.usedCmd a) msg h i).1 = i := by
    simp only [M.failIfM, bind, M.usedCmd]
    cases h a == some true <;> rfl
  refine ⟨(), by rw [e], ?_⟩
  rw [e, e']
  exact hP

/-- The program looks at other commands and, if none of them is used, returns `a`. -/
def M.Looks (m : M α) (a : α) : Prop := m.Quiet ∧ ∀ h i, Clears h → m h i = (i, .ok a)

theorem looks_pure {a : α} : M.Looks (pure a) a := ⟨quiet_pure, fun _ _ _ => rfl⟩

theorem looks_seen {b : Str} {m m' : M α} {a : α} (hb : b ∈ ([c!"partition", c!"raid", c!"volgroup", c!"logvol", c!"autopart"] : List Str)) (hm : m.Quiet) (hm' : M.Looks m' a) :
    M.Looks (M.cond (M.seenCmd b) m m') a := by
  refine ⟨quiet_cond quiet_seenCmd hm hm'.1, fun h i hc => ?_⟩
  simp only [M.cond, bind, M.seenCmd, hc.1 b hb]
  exact hm'.2 h i hc

theorem looks_used {b : Str} {m m' : M α} {a : α} (hb : b ∈ ([c!"mount", c!"reqpart"] : List Str)) (hm : m.Quiet) (hm' : M.Looks m' a) :
    M.Looks (M.cond (M.usedCmd b) m m') a := by
  refine ⟨quiet_cond quiet_usedCmd hm hm'.1, fun h i hc => ?_⟩
  have hf : (h b == some true) = false := by simpa using hc.2 b hb
  simp only [M.cond, bind, M.usedCmd, hf]
  exact hm'.2 h i hc

/-- No conflict is found. -/
theorem sims_conflict {m : M Str} {msg : Str} (hm : M.Looks m []) :
    M.Sims P (m >>= fun x => M.failIf (!x.isEmpty) msg) (m >>= fun x => M.failIf (!x.isEmpty) msg) fun _ _ => P := by
  refine sims_q (S := fun _ b => b = []) ?_ fun a b hb => sims_failIf_false (by rw [hb]; rfl)
  intro h i a _ h' i' hc hP
  rw [hm.2 h' i' hc]
  refine ⟨[], rfl, rfl, ?_⟩
  have hq := hm.1
  unfold M.Quiet at hq
  rw [hq h i]
  exact hP

theorem sims_conflict_then {R : γ → δ → Ns → Ns → Prop} {m : M Str} {msg : Str} {f : Unit → M γ} {f' : Unit → M δ} (hm : M.Looks m []) (hf : M.Sims P (f ()) (f' ()) R) :
    M.Sims P (m >>= fun x => M.failIf (!x.isEmpty) msg >>= f) (m >>= fun x => M.failIf (!x.isEmpty) msg >>= f') R := by
  refine sims_q (S := fun _ b => b = []) ?_ fun a b hb => sims_call (sims_failIf_false (by rw [hb]; rfl)) hf
  intro h i a _ h' i' hc hP
  rw [hm.2 h' i' hc]
  refine ⟨[], rfl, rfl, ?_⟩
  have hq := hm.1
  unfold M.Quiet at hq
  rw [hq h i]
  exact hP

/-! ## Texts -/

theorem Cond.eval_get {d d' : Ns} (h : Alike [] d d') (c : Cond) : c.eval d = c.eval d' := by
  induction c with
  | tt => rfl
  | not c ih => simp only [Cond.eval, ih]
  | and a b iha ihb => simp only [Cond.eval, iha, ihb]
  | or a b iha ihb => simp only [Cond.eval, iha, ihb]
  | has k => simp only [Cond.eval, h k (by simp)]
  | _ => simp only [Cond.eval, h.getD (List.not_mem_nil)]

theorem Frag.render_get {d d' : Ns} (h : Alike [] d d') (f : Frag) : f.render d = f.render d' := by
  cases f with
  | lit s => rfl
  | _ => simp only [Frag.render, h.getD (List.not_mem_nil)]

theorem Out.render_get {d d' : Ns} (h : Alike [] d d') (o : Out) : o.render d = o.render d' := by
  unfold Out.render
  congr 1
  apply List.map_congr_left
  intro x _
  unfold pieceText
  rw [Cond.eval_get h, List.map_congr_left fun f _ => Frag.render_get h f]

/-- What the text of the command depends on. -/
def Sheet.Shown (s : Sheet) (d : Ns) : Prop := (∀ k ∈ s.pos, (d.getD k).Present) ∧ (∀ k ∈ s.ends, (d.getD k).Ends) ∧ ∀ c ∈ s.req, c.eval d = true

theorem Sheet.Plain.shown {s : Sheet} {d : Ns} (h : s.Plain d) : s.Shown d := ⟨h.1.present, h.2.2.1, h.2.2.2⟩

theorem Sheet.Shown.get {s : Sheet} {d d' : Ns} (h : s.Shown d) (ha : Alike [] d d') : s.Shown d' := by
  obtain ⟨h1, h2, h3⟩ := h
  refine ⟨fun k hk => ?_, fun k hk => ?_, fun c hc => ?_⟩
  · rw [← ha.getD List.not_mem_nil]; exact h1 k hk
  · rw [← ha.getD List.not_mem_nil]; exact h2 k hk
  · rw [← Cond.eval_get ha]; exact h3 c hc

/-! ## Command classes -/

/-- Let the command accept a line. If nothing is lost when it is written, its text is a line.  A new object accepts it
whenever no other command excludes this one, and then has the same attributes; it writes the same text. -/
def Command.SelfNormal (c : Command) (s : Sheet) (need fixed : List Str) (base : Ns) : Prop :=
  ∀ h args i x, i.attrs.attrs = c.init.attrs → (c.parse h args i).2 = .ok x → s.Plain (selfOf (c.parse h args i).1) →
    s.Lossless need fixed base (selfOf (c.parse h args i).1) →
    ∃ name ∈ s.names, ∃ args', shlexSplit (c.str (c.parse h args i).1) true = .ok (name :: args') ∧
      ∀ h' i', Clears h' → i'.attrs.attrs = c.init.attrs → ∃ x', (c.parse h' args' i').2 = .ok x' ∧
        Alike [] (c.parse h args i).1.attrs.attrs (c.parse h' args' i').1.attrs.attrs ∧
        ((c.parse h' args' i').1.seen = (c.parse h args i).1.seen → c.str (c.parse h' args' i').1 = c.str (c.parse h args i).1)

theorem plainCmd_accepts {name : Str} {prio : Option Int} {init : Ns} {parse : List Str → M Unit} {str : Ns → Str} {h : Str → Option Bool} {args : List Str} {i : Inst CState}
    (hx : (parse args h i).2 = .ok ()) :
    ((plainCmd name prio init parse str).parse h args i).2 = .ok none ∧ ((plainCmd name prio init parse str).parse h args i).1 = (parse args h i).1 := by
  simp only [plainCmd]
  generalize parse args h i = r at hx ⊢
  obtain ⟨j, y⟩ := r
  cases y with
  | error e => cases hx
  | ok y => exact ⟨rfl, rfl⟩

theorem selfOf_same {i i' : Inst CState} (h : Alike [] i.attrs.attrs i'.attrs.attrs) (hs : i'.seen = i.seen) : Alike [] (selfOf i) (selfOf i') := by
  intro k _
  unfold selfOf Ns.get
  rw [List.lookup_cons, List.lookup_cons, hs]
  split
  · rfl
  · exact h k (by simp)

theorem plain_normal {name : Str} {prio : Option Int} {parse : List Str → M Unit} {str : Ns → Str} {s : Sheet} {need fixed K T : List Str} {ps : List (List Sym)} {o : Out}
    {h : Str → Option Bool} {i : Inst CState} {x : Option Ns} (hs : c!"seen" ∈ T)
    (hstr : ∀ d, s.Shown d → str d = o.render d) (hc : s.check op init o = true) (hn : normalCheck s need fixed X K op init ps o = true)
    (hT : ∀ k ∈ T, k ∈ s.skip) (hTf : ∀ k ∈ fixed, k ∉ T) (hi : i.attrs.attrs = init)
    (hx : ((plainCmd name prio init parse str).parse h args i).2 = .ok x)
    (hP : ParsedBy op init T i.lineno args ((plainCmd name prio init parse str).parse h args i).1.attrs.attrs)
    (hsim : ∀ args', Follows op init X E args args' → M.Sims (Fresh init) (parse args) (parse args') fun _ _ => Alike [])
    (hskip : SkipOk s fixed op o (selfOf ((plainCmd name prio init parse str).parse h args i).1))
    (htakes : ∀ ns ex, op.parseKnown (some (i.lineno : Int)) args = .ok (ns, ex) →
      Takes op K (ps.map (wordOf (selfOf ((plainCmd name prio init parse str).parse h args i).1))) ns (E ex))
    (hp : s.Plain (selfOf ((plainCmd name prio init parse str).parse h args i).1))
    (hL : s.Lossless need fixed (setToObj op.defaults init) (selfOf ((plainCmd name prio init parse str).parse h args i).1)) :
    ∃ nm ∈ s.names, ∃ args', shlexSplit ((plainCmd name prio init parse str).str ((plainCmd name prio init parse str).parse h args i).1) true = .ok (nm :: args') ∧
      ∀ h' i', Clears h' → i'.attrs.attrs = init → ∃ x', ((plainCmd name prio init parse str).parse h' args' i').2 = .ok x' ∧
        Alike [] ((plainCmd name prio init parse str).parse h args i).1.attrs.attrs ((plainCmd name prio init parse str).parse h' args' i').1.attrs.attrs ∧
        (((plainCmd name prio init parse str).parse h' args' i').1.seen = ((plainCmd name prio init parse str).parse h args i).1.seen →
          (plainCmd name prio init parse str).str ((plainCmd name prio init parse str).parse h' args' i').1 =
          (plainCmd name prio init parse str).str ((plainCmd name prio init parse str).parse h args i).1) := by
  obtain ⟨ns, ex, h1, h2⟩ := hP.self hs
  obtain ⟨nm, hnm, args', hw, hk⟩ := normal_obj hc hn h1 h2 hT hTf hp hL hskip (htakes ns ex h1)
  have hst : ∀ j, (plainCmd name prio init parse str).str j = str (selfOf j) := fun _ => rfl
  refine ⟨nm, hnm, args', by rw [hst, hstr _ hp.shown]; exact hw, fun h' i' hcl hi' => ?_⟩
  have hf : Follows op init X E args args' := by
    intro l l' ns1 ex1 h3
    rcases (parseKnown_lsame l (some (i.lineno : Int)) op args).cases with ⟨x, g1, g2⟩ | ⟨e, f, g1, -, -⟩
    · rw [g1] at h3
      rw [h1] at g2
      injection h3 with h3
      injection g2 with g2
      rw [h3] at g2
      injection g2 with e1 e2
      subst e1 e2
      exact hk l'
    · rw [g1] at h3; cases h3
  obtain ⟨hy, hr⟩ := plainCmd_parse hx
  obtain ⟨⟨⟩, hz, ha⟩ := hsim args' hf h i () hy h' i' hcl ⟨hi, hi'⟩
  obtain ⟨hz1, hz2⟩ := plainCmd_accepts (name := name) (prio := prio) (init := init) (str := str) hz
  refine ⟨none, hz1, by rw [hr, hz2]; exact ha, fun hse => ?_⟩
  have hal : Alike [] (selfOf ((plainCmd name prio init parse str).parse h args i).1) (selfOf ((plainCmd name prio init parse str).parse h' args' i').1) :=
    selfOf_same (by rw [hr, hz2]; exact ha) hse
  rw [hst, hst, hstr _ hp.shown, hstr _ (hp.shown.get hal), Out.render_get hal]

/-- Commands with options only. -/
theorem plain_opts {name : Str} {prio : Option Int} {parse : List Str → M Unit} {str : Ns → Str} (s : Sheet) {need fixed T : List Str} {o : Out}
    (hparse : ∀ args n, M.Self n (Before init T) (parse args) fun _ => ParsedBy op init T n args)
    (hstr : ∀ d, s.Shown d → str d = o.render d)
    (hsim : ∀ args args', Follows op init [] noWords args args' → M.Sims (Fresh init) (parse args) (parse args') fun _ _ => Alike [])
    (hs : c!"seen" ∈ T) (hT : ∀ k ∈ T, k ∈ s.skip ∧ k ∉ fixed) (hc : s.check op init o = true)
    (hn : (normalCheck s need fixed [] [] op init [] o && optsOnly op && skipCheck s fixed op o) = true) :
    (plainCmd name prio init parse str).SelfNormal s need fixed (setToObj op.defaults init) := by
  simp only [Bool.and_eq_true] at hn
  intro h args i x hi hx hp hL
  obtain ⟨hy, hr⟩ := plainCmd_parse hx
  exact plain_normal hs hstr hc hn.1.1 (fun k hk => (hT k hk).1) (fun k hk e => (hT k e).2 hk) hi hx
    (by rw [hr]; exact (hparse args i.lineno).run rfl (by rw [show i.attrs.attrs = init from hi]; exact before_refl) hy) (hsim args) (skip_ok hn.2 _)
    (fun ns ex _ => takes_noWords (Sheet.check_wf hc) hn.1.2 ns ex) hp hL

/-! ## Tactics -/

/-- A step through two runs. -/
syntax "sims_step" : tactic
macro_rules
  | `(tactic| sims_step) => `(tactic| first
    | with_reducible exact sims_unit
    | (with_reducible apply sims_bind_self; intro _ _ _; try dsimp only)
    | (with_reducible apply sims_bind_known (by assumption); intro _ _ _ _; try dsimp only)
    | (with_reducible apply sims_bind_args (by assumption) noWords_nil; intro _ _ _; try dsimp only)
    | (with_reducible refine sims_conflict_then ?_ ?_)
    | (with_reducible refine sims_conflict ?_)
    | (with_reducible apply sims_bind_lift; rotate_left; intro _)
    | (with_reducible refine sims_call (sims_setTo (by assumption)) ?_)
    | (with_reducible exact sims_setTo (by assumption))
    | (with_reducible apply sims_call; rotate_left)
    | (with_reducible apply looks_seen (by decide) (by self_quiet; done))
    | (with_reducible apply looks_used (by decide) (by self_quiet; done))
    | with_reducible exact looks_pure
    | (with_reducible exact sims_seen (by decide))
    | (with_reducible exact sims_used (by decide))
    | with_reducible apply sims_failIf
    | with_reducible apply sims_assert
    | with_reducible apply sims_when_warn
    | with_reducible apply sims_when
    | with_reducible apply sims_set
    | alike_step)

end Ks
