import Verif.ArgparseCanon
/-!
# What a positional argument holds after parsing

`parseKnown_pos`: after a successful `parse_known_args`, a required positional holds the conversion of
some slice of the arguments that its pattern matched.
-/
namespace Ks

/-- The slice lengths `ks` are matched one after the other. -/
def Matches : List Nargs → List Nat → Args → Prop
  | [], [], _ => True
  | n :: ns, k :: ks, p => k ∈ candidates n p ∧ Matches ns ks (p.drop k)
  | _, _, _ => False

theorem matchAll_matches {ns : List Nargs} {p : Args} {ks : List Nat} (h : matchAll ns p = some ks) : Matches ns ks p := by
  induction ns generalizing p ks with
  | nil => simp only [matchAll, Option.some.injEq] at h; subst h; exact trivial
  | cons n ns ih =>
    simp only [matchAll] at h
    obtain ⟨k, hk, hr⟩ := List.exists_of_findSome?_eq_some h
    cases hm : matchAll ns (p.drop k) with
    | none => rw [hm] at hr; cases hr
    | some r => rw [hm] at hr; cases hr; exact ⟨hk, ih hm⟩

theorem matchPartial_matches (ns : List Nargs) (p : Args) :
    ∃ i, i ≤ ns.length ∧ Matches (ns.take i) (matchPartial ns p) p ∧ (matchPartial ns p).length = i := by
  unfold matchPartial
  have : ∀ j, j ≤ ns.length → ∃ i, i ≤ ns.length ∧ Matches (ns.take i) (matchPartial.go ns p j) p ∧ (matchPartial.go ns p j).length = i := by
    intro j
    induction j with
    | zero => intro _; exact ⟨0, by omega, by simp [matchPartial.go, Matches], rfl⟩
    | succ j ih =>
      intro hj
      rw [matchPartial.go]
      split
      · rename_i r hr
        refine ⟨j + 1, hj, matchAll_matches hr, ?_⟩
        have := (matchAll_le _ _ _ hr).2
        rw [this, List.length_take]; omega
      · exact ih (by omega)
  exact this _ (Nat.le_refl _)

/-- The action's destination holds the converted slice `xs`, which meets `T`. -/
def Held (l : Option Int) (a : Action) (T : List Str → Prop) (ns : Ns) : Prop :=
  ∃ xs v, T xs ∧ getValues l a xs = .ok v ∧ ns.get a.dest = some v

/-- What is known about a slice: its pattern matched it in a list of which `D` holds. -/
def SliceOf (a : Action) (D : Args → Prop) (xs : List Str) : Prop :=
  ∃ (p : Args) (k : Nat), D p ∧ k ∈ candidates a.nargs p ∧ xs = (p.take k).map (·.1)

theorem takePositionals_held {l : Option Int} {as : List Action} {ks : List Nat} {st st' : LoopSt} {rest rest' : Args} {i : Nat}
    (h : takePositionals l as ks st rest = .ok (st', rest')) (hm : Matches ((as.map (·.nargs)).take i) ks rest)
    {a : Action} (ha : a ∈ as.take i) (hk : a.kind = .store) (hn : as.Nodup) (hu : ∀ b ∈ as, b.dest = a.dest → b = a)
    {D : Args → Prop} (hD : D rest) (hdrop : as.head? = some a ∨ ∀ p k, D p → D (p.drop k)) :
    Held l a (SliceOf a D) st'.ns := by
  induction as generalizing ks st rest i with
  | nil => simp at ha
  | cons b as ih =>
    cases i with
    | zero => simp at ha
    | succ i =>
      cases ks with
      | nil => simp [Matches] at hm
      | cons k ks =>
        simp only [List.map_cons, List.take_succ_cons, Matches] at hm
        rw [List.nodup_cons] at hn
        simp only [takePositionals] at h
        split at h
        · cases h
        · rename_i ns hns
          obtain ⟨v, hv, rfl⟩ := takeAction_ok hns
          by_cases hb : b = a
          · subst hb
            have := takePositionals_get h (d := b.dest) fun c hc e => hn.1 (by rw [← hu c (by simp [hc]) e]; exact hc)
            refine ⟨_, v, ⟨rest, k, hD, hm.1, rfl⟩, hv, ?_⟩
            rw [this]
            rw [Ns.get_set, if_pos rfl, actVal, hk]
          · have ha' : a ∈ as.take i := by
              rw [List.take_succ_cons] at ha
              rcases List.mem_cons.1 ha with e | ha
              · exact (hb e.symm).elim
              · exact ha
            rcases hdrop with hd | hd
            · simp at hd; exact (hb hd).elim
            · exact ih h hm.2 ha' hn.2 (fun c hc => hu c (by simp [hc])) (hd _ _ hD) (.inr hd)

theorem takePositionals_take (l : Option Int) (as : List Action) (ks : List Nat) (st : LoopSt) (rest : Args) (i : Nat) (h : ks.length = i) :
    takePositionals l (as.take i) ks st rest = takePositionals l as ks st rest := by
  subst h
  induction ks generalizing as st rest with
  | nil => cases as <;> rfl
  | cons k ks ih =>
    cases as with
    | nil => rfl
    | cons a as =>
      simp only [List.length_cons, List.take_succ_cons, takePositionals]
      split
      · rfl
      · exact ih _ _ _

deriving instance DecidableEq for Ty, Action

/-- The positional `a` of the parser has its destination for itself and must be given. -/
structure OptParser.Sole (p : OptParser) (a : Action) : Prop where
  mem : a ∈ p.actions
  pos : a.opts = []
  kind : a.kind = .store
  req : a.required = true
  ids : (p.actions.map (·.id)).Nodup
  uniq : ∀ b ∈ p.actions, b.dest = a.dest → b = a
  other : ∀ kv ∈ p.strings, kv.2.dest ≠ a.dest ∧ kv.2.id ≠ a.id

instance (p : OptParser) (a : Action) : Decidable (p.Sole a) :=
  decidable_of_iff (a ∈ p.actions ∧ a.opts = [] ∧ a.kind = .store ∧ a.required = true ∧ (p.actions.map (·.id)).Nodup ∧
    (∀ b ∈ p.actions, b.dest = a.dest → b = a) ∧ ∀ kv ∈ p.strings, kv.2.dest ≠ a.dest ∧ kv.2.id ≠ a.id)
    ⟨fun ⟨h1, h2, h3, h4, h5, h6, h7⟩ => ⟨h1, h2, h3, h4, h5, h6, h7⟩, fun ⟨h1, h2, h3, h4, h5, h6, h7⟩ => ⟨h1, h2, h3, h4, h5, h6, h7⟩⟩

theorem consumeOptional_get {l : Option Int} {st st' : LoopSt} {s : Str} {t : OptTuple} {rest rest' : Args}
    (h : consumeOptional l st s t rest = .ok (st', rest')) {d : Str} (hd : ∀ b, t.action = some b → b.dest ≠ d) :
    st'.ns.get d = st.ns.get d := by
  have key : ∀ (a : Action) (xs : List Str) (ns : Ns), a.dest ≠ d → takeAction l a xs st.ns = .ok ns → ns.get d = st.ns.get d := by
    intro a xs ns hne hns
    obtain ⟨v, _, rfl⟩ := takeAction_ok hns
    exact Ns.get_set_ne _ _ hne
  unfold consumeOptional at h
  split at h
  · simp only [Except.ok.injEq, Prod.mk.injEq] at h; rw [← h.1]
  · rename_i a ha
    split at h
    · split at h
      · split at h
        · cases h
        · rename_i hns; simp only [Except.ok.injEq, Prod.mk.injEq] at h; rw [← h.1]; exact key a _ _ (hd a ha) hns
      · cases h
      · cases h
    · split at h
      · cases h
      · split at h
        · cases h
        · rename_i hns; simp only [Except.ok.injEq, Prod.mk.injEq] at h; rw [← h.1]; exact key a _ _ (hd a ha) hns

theorem nodup_of_map {α β : Type} {f : α → β} {l : List α} (h : (l.map f).Nodup) : l.Nodup := by
  induction l with
  | nil => simp
  | cons a l ih =>
    rw [List.map_cons, List.nodup_cons] at h
    exact List.nodup_cons.2 ⟨fun hm => h.1 (List.mem_map_of_mem hm), ih h.2⟩

theorem id_inj {as : List Action} (h : (as.map (·.id)).Nodup) {a b : Action} (ha : a ∈ as) (hb : b ∈ as) (e : a.id = b.id) : a = b := by
  induction as with
  | nil => simp at ha
  | cons c as ih =>
    rw [List.map_cons, List.nodup_cons] at h
    rcases List.mem_cons.1 ha with rfl | ha' <;> rcases List.mem_cons.1 hb with rfl | hb'
    · rfl
    · exact (h.1 (List.mem_map.2 ⟨b, hb', e.symm⟩)).elim
    · exact (h.1 (List.mem_map.2 ⟨a, ha', e⟩)).elim
    · exact ih h.2 ha' hb'

/-- After `parse_known_args` a required positional holds the conversion of a slice its pattern
matched, in a list of arguments of which `D` holds (`D` is a fact about the arguments that
consuming options and skipping words keeps while the positional is pending). -/
theorem parseKnown_pos {p : OptParser} {a : Action} (hs : p.Sole a) {l : Option Int} {args : List Str} {ns : Ns} {ex : List Str}
    (h : p.parseKnown l args = .ok (ns, ex)) (first : Bool)
    (hfirst : first = true → p.initSt.positionals.head? = some a) (D : Args → Prop)
    (h0 : ∀ cs, p.classify l args = .ok cs → D cs)
    (hO : ∀ s t tl k, D ((s, Cls.O t) :: tl) → k ≤ (tl.takeWhile (·.2.isA)).length → D (tl.drop k))
    (hskip : ∀ (pre : Args) s t tl, (∀ x ∈ pre, x.2.isO = false) → D (pre ++ (s, Cls.O t) :: tl) → D ((s, Cls.O t) :: tl))
    (hdrop : first = false → ∀ p k, D p → D (p.drop k)) :
    Held l a (SliceOf a D) ns := by
  unfold OptParser.parseKnown at h
  split at h
  · cases h
  rename_i cs hcs
  split at h
  · cases h
  rename_i st rest hloop
  split at h
  · cases h
  rename_i ns' missing hfin
  cases missing with
  | true => simp at h
  | false =>
    simp only [Bool.false_eq_true, if_false, Except.ok.injEq, Prod.mk.injEq] at h
    obtain ⟨rfl, -⟩ := h
    have hseen := (finish_missing hfin).2 a hs.mem hs.req
    have key : (a ∉ st.positionals ∧ Held l a (SliceOf a D) st.ns) ∨ a.id ∉ st.seen := by
      refine parseLoop_inv'
        (fun st rest => st.positionals.Nodup ∧ (∀ b ∈ st.positionals, b ∈ p.actions) ∧ (∀ x ∈ rest, x ∈ cs) ∧
          ((a ∈ st.positionals ∧ a.id ∉ st.seen ∧ D rest ∧ (first = true → st.positionals.head? = some a)) ∨
            (a ∉ st.positionals ∧ Held l a (SliceOf a D) st.ns)))
        (fun st _ => (a ∉ st.positionals ∧ Held l a (SliceOf a D) st.ns) ∨ a.id ∉ st.seen)
        ?_ ?_ ?_ ?_ _ _ _ (Nat.lt_succ_self _) ⟨?_, ?_, fun _ h => h, .inl ⟨?_, ?_, h0 cs hcs, hfirst⟩⟩ hloop
      · intro st s t tl st' rest' ⟨hn, hsub, hc, hP⟩ hco
        obtain ⟨⟨k, hk, hr⟩, hcase, hpe⟩ := consumeOptional_ok hco
        have hact : ∀ b, t.action = some b → b.dest ≠ a.dest ∧ b.id ≠ a.id := by
          intro b hb
          obtain ⟨_, hpo⟩ := classify_mem hcs (hc (s, .O t) (by simp))
          obtain ⟨n, hn⟩ := parseOptional_action hpo hb
          exact hs.other _ hn.1
        refine ⟨by rw [hpe]; exact hn, by rw [hpe]; exact hsub, ?_, ?_⟩
        · intro x hx; rw [hr] at hx; exact hc x (List.mem_cons_of_mem _ (List.mem_of_mem_drop hx))
        · rcases hP with ⟨hm, hns, hD, hf⟩ | ⟨hm, hH⟩
          · refine .inl ⟨by rw [hpe]; exact hm, ?_, by rw [hr]; exact hO s t tl k hD hk, by rw [hpe]; exact hf⟩
            rcases hcase with ⟨_, _, he, _⟩ | ⟨b, hb, _, he⟩
            · rw [he]; exact hns
            · rw [he]; intro hm'
              rcases List.mem_cons.1 hm' with e | hm'
              · exact (hact b hb).2 e.symm
              · exact hns hm'
          · refine .inr ⟨by rw [hpe]; exact hm, ?_⟩
            obtain ⟨xs, v, h1, h2, h3⟩ := hH
            exact ⟨xs, v, h1, h2, by rw [consumeOptional_get hco fun b hb => (hact b hb).1]; exact h3⟩
      · intro st pre s t tl hpre ⟨hn, hsub, hc, hP⟩
        refine ⟨hn, hsub, fun x hx => hc x (List.mem_append_right _ hx), ?_⟩
        rcases hP with ⟨hm, hns, hD, hf⟩ | hP
        · exact .inl ⟨hm, hns, hskip pre s t tl hpre hD, hf⟩
        · exact .inr hP
      · intro st rest st' rest' ⟨hn, hsub, hc, hP⟩ hco
        obtain ⟨_, ⟨k, hk, hr⟩, n, hpos⟩ := consumePositionals_ok hco
        have hco' := hco
        unfold consumePositionals at hco
        simp only at hco
        split at hco
        · cases hco
        · rename_i st1 rest1 ht
          simp only [Except.ok.injEq, Prod.mk.injEq] at hco
          obtain ⟨i, hi, hmat, hlen⟩ := matchPartial_matches (st.positionals.map (·.nargs)) rest
          have hp' : st'.positionals = st.positionals.drop i := by rw [← hco.1, ← hlen]
          have hns' : st'.ns = st1.ns := by rw [← hco.1]
          have hseen' : st'.seen = st1.seen := by rw [← hco.1]
          refine ⟨by rw [hp']; exact hn.sublist (List.drop_sublist _ _), by rw [hp']; exact fun b hb => hsub b (List.mem_of_mem_drop hb), ?_, ?_⟩
          · intro x hx; rw [hr] at hx; exact hc x (List.mem_of_mem_drop hx)
          · have hsplit : ∀ b, b ∈ st.positionals → b ∈ st.positionals.take i ∨ b ∈ st.positionals.drop i := by
              intro b hb; rw [← List.take_append_drop i st.positionals] at hb; exact List.mem_append.1 hb
            have hdisj : ∀ b, b ∈ st.positionals.take i → b ∉ st.positionals.drop i := by
              intro b h1 h2
              have := hn
              rw [← List.take_append_drop i st.positionals, List.nodup_append] at this
              exact this.2.2 b h1 b h2 rfl
            rcases hP with ⟨hm, hns, hD, hf⟩ | ⟨hm, hH⟩
            · rcases hsplit a hm with hm1 | hm1
              · refine .inr ⟨by rw [hp']; exact hdisj a hm1, ?_⟩
                rw [hns']
                refine takePositionals_held ht (i := i) hmat hm1 hs.kind hn (fun b hb => hs.uniq b (hsub b hb)) hD ?_
                cases first with
                | true => exact .inl (hf rfl)
                | false => exact .inr (hdrop rfl)
              · cases first with
                | true =>
                  have hz : i = 0 := by
                    cases hpl : st.positionals with
                    | nil => rw [hpl] at hm; simp at hm
                    | cons b bs =>
                      have hb : b = a := by have := hf rfl; rw [hpl] at this; simpa using this
                      cases i with
                      | zero => rfl
                      | succ i =>
                        refine (hdisj a ?_ hm1).elim
                        rw [hpl, hb]; simp
                  have hnil : matchPartial (st.positionals.map (·.nargs)) rest = [] := List.length_eq_zero_iff.1 (by rw [hlen, hz])
                  rw [hnil] at ht
                  have : takePositionals l st.positionals [] st rest = .ok (st, rest) := by
                    cases st.positionals <;> rfl
                  rw [this] at ht
                  simp only [Except.ok.injEq, Prod.mk.injEq] at ht
                  refine .inl ⟨by rw [hp']; exact hm1, by rw [hseen', ← ht.1]; exact hns, ?_, fun _ => by rw [hp', hz]; exact hf rfl⟩
                  rw [← hco.2, ← ht.2]; exact hD
                | false =>
                  refine .inl ⟨by rw [hp']; exact hm1, ?_, by rw [hr]; exact hdrop rfl _ _ hD, fun h => by cases h⟩
                  rw [hseen']
                  intro hm2
                  have htk : takePositionals l (st.positionals.take i) (matchPartial (st.positionals.map (·.nargs)) rest) st rest = .ok (st1, rest1) := by
                    rw [← ht]
                    exact takePositionals_take l _ _ _ _ _ hlen
                  rcases takePositionals_seen htk a.id hm2 with h1 | ⟨b, hb, he⟩
                  · exact hns h1
                  · have : b = a := id_inj hs.ids (hsub b (List.mem_of_mem_take hb)) hs.mem he
                    rw [this] at hb
                    exact hdisj a hb hm1
            · refine .inr ⟨by rw [hp']; exact fun h => hm (List.mem_of_mem_drop h), ?_⟩
              obtain ⟨xs, v, h1, h2, h3⟩ := hH
              refine ⟨xs, v, h1, h2, ?_⟩
              rw [consumePositionals_get hco' fun b hb e => hm (by rw [← hs.uniq b (hsub b hb) e]; exact hb)]
              exact h3
      · intro st rest _ ⟨_, _, _, hP⟩
        rcases hP with ⟨_, h, _⟩ | h
        · exact .inr h
        · exact .inl h
      · exact (nodup_of_map hs.ids).sublist List.filter_sublist
      · intro b hb; exact (List.mem_filter.1 hb).1
      · exact List.mem_filter.2 ⟨hs.mem, by simp [hs.pos]⟩
      · simp [OptParser.initSt]
    rcases key with ⟨_, xs, v, h1, h2, h3⟩ | hk
    · refine ⟨xs, v, h1, h2, ?_⟩
      rw [finish_get hfin fun b hb e => .inl (by rw [hs.uniq b hb e]; exact hseen)]
      exact h3
    · exact (hk hseen).elim

/-! ## Shapes -/

theorem getValueList_length {l : Option Int} {a : Action} {xs ys : List Str} (h : getValueList l a xs = .ok ys) : ys.length = xs.length := by
  induction xs generalizing ys with
  | nil => cases h; rfl
  | cons x xs ih =>
    rw [getValueList] at h
    simp only [bind, Except.bind, pure, Except.pure] at h
    repeat' split at h
    all_goals first | cases h | skip
    rename_i hh _ _
    simp [ih (by assumption)]

/-- The value of a positional that takes exactly one argument. -/
def Val.OneStr : Val → Prop
  | .list [_] => True
  | _ => False

def Val.IsList : Val → Prop
  | .list _ => True
  | _ => False

theorem getValues_n1 {l : Option Int} {a : Action} {xs : List Str} {v : Val} (ho : a.opts = []) (hn : a.nargs = .n 1)
    (hx : (xs.erase c!"--").length = 1) (h : getValues l a xs = .ok v) : v.OneStr := by
  unfold getValues at h
  simp only [ho, if_true, hn] at h
  match hl : xs.erase c!"--" with
  | [] => rw [hl] at hx; cases hx
  | _ :: _ :: _ => rw [hl] at hx; simp at hx
  | [s] =>
    rw [hl] at h
    simp only at h
    cases hg : getValueList l a [s] with
    | error e => rw [hg] at h; cases h
    | ok ys =>
      rw [hg] at h
      cases h
      have := getValueList_length hg
      match ys, this with
      | [y], _ => trivial

theorem getValues_star {l : Option Int} {a : Action} {xs : List Str} {v : Val} (ho : a.opts = []) (hn : a.nargs = .star)
    (hd : a.default = .none) (h : getValues l a xs = .ok v) : v.IsList := by
  unfold getValues at h
  simp only [ho, if_true, hn, hd] at h
  split at h
  · rename_i e; cases e
  · simp only [bind, Except.bind, pure, Except.pure] at h
    split at h
    · cases h
    · simp at h; subst h; trivial
  · rename_i e; cases e
  · rename_i e; cases e
  · cases hg : getValueList l a (xs.erase c!"--") with
    | error e => rw [hg] at h; cases h
    | ok ys => rw [hg] at h; cases h; trivial

/-- Every `--` of the rest is the separator or comes after it. -/
def DashOk : Args → Prop
  | [] => True
  | (s, .dash) :: t => s = c!"--" ∧ ∀ x ∈ t, x.2.isA = true
  | (s, _) :: t => s ≠ c!"--" ∧ DashOk t

theorem parseOptional_notdash {p : OptParser} {l : Option Int} {s : Str} {c : Cls} (h : p.parseOptional l s = .ok c) : c ≠ .dash := by
  intro e
  subst e
  unfold OptParser.parseOptional at h
  repeat' split at h
  all_goals first | cases h | simp at h
  all_goals (repeat' split at h)
  all_goals first | cases h | simp at h

theorem classify_dashOk {p : OptParser} {l : Option Int} {args : List Str} {cs : Args} (h : p.classify l args = .ok cs) : DashOk cs := by
  induction args generalizing cs with
  | nil => injection h with h; subst h; trivial
  | cons a t ih =>
    rw [OptParser.classify] at h
    split at h
    · rename_i e
      injection h with h; subst h
      simp [DashOk, e, Cls.isA]
    · rename_i e
      split at h
      · cases h
      · rename_i c hc
        split at h
        · cases h
        · rename_i cs' hcs
          injection h with h; subst h
          have := parseOptional_notdash hc
          cases c with
          | dash => exact (this rfl).elim
          | A => exact ⟨e, ih hcs⟩
          | O t => exact ⟨e, ih hcs⟩

theorem classify_strings {p : OptParser} {l : Option Int} {args : List Str} {cs : Args} (h : p.classify l args = .ok cs) :
    cs.map (·.1) = args := by
  induction args generalizing cs with
  | nil => injection h with h; subst h; rfl
  | cons a t ih =>
    rw [OptParser.classify] at h
    split at h
    · injection h with h; subst h
      simp [Function.comp_def]
    · split at h
      · cases h
      · split at h
        · cases h
        · rename_i cs' hcs
          injection h with h; subst h
          simp [ih hcs]

theorem DashOk.skipA {x : Str × Cls} {t : Args} (hx : x.2.isDash = false) (h : DashOk (x :: t)) : DashOk t ∧ x.1 ≠ c!"--" := by
  obtain ⟨s, c⟩ := x
  cases c with
  | dash => simp [Cls.isDash] at hx
  | A => exact ⟨h.2, h.1⟩
  | O t => exact ⟨h.2, h.1⟩

theorem DashOk.drop {tl : Args} (h : DashOk tl) {k : Nat} (hk : k ≤ (tl.takeWhile (·.2.isA)).length) : DashOk (tl.drop k) := by
  induction tl generalizing k with
  | nil => simpa using h
  | cons x t ih =>
    cases k with
    | zero => exact h
    | succ k =>
      cases hx : x.2.isA with
      | false => simp [hx] at hk
      | true =>
        simp only [List.takeWhile_cons, hx, if_true, List.length_cons, Nat.add_le_add_iff_right] at hk
        refine ih (h.skipA ?_).1 hk
        obtain ⟨s, c⟩ := x
        cases c <;> simp_all [Cls.isA, Cls.isDash]

/-- What the pattern of one positional argument matches. -/
theorem candN1 {rest : Args} {k : Nat} (h : k ∈ candN 1 rest) : ∃ (d1 : Args) (s : Str) (d2 tl : Args), rest = d1 ++ (s, .A) :: d2 ++ tl ∧ k = d1.length + 1 + d2.length ∧
    (∀ x ∈ d1, x.2.isDash = true) ∧ ∀ x ∈ d2, x.2.isDash = true := by
  simp only [candN] at h
  split at h
  · rename_i s t hs
    obtain ⟨j, hj, rfl⟩ := List.mem_map.1 h
    have hj := downTo_le hj
    refine ⟨rest.takeWhile (·.2.isDash), s, t.take j, t.drop j, ?_, ?_, ?_, ?_⟩
    · rw [List.append_assoc, List.cons_append, List.take_append_drop, ← hs, List.takeWhile_append_dropWhile]
    · have : j ≤ t.length := Nat.le_trans hj (List.takeWhile_sublist _).length_le
      rw [List.length_take]; omega
    · intro x hx
      exact List.all_eq_true.1 List.all_takeWhile x hx
    · intro x hx
      exact take_takeWhile_mem hj x hx
  · simp at h

theorem DashOk.noDash {pre : Args} {s : Str} {t : OptTuple} {tl : Args} (h : DashOk (pre ++ (s, .O t) :: tl)) : DashOk ((s, .O t) :: tl) := by
  induction pre with
  | nil => exact h
  | cons x pre ih =>
    cases hx : x.2.isDash with
    | false => exact ih (h.skipA hx).1
    | true =>
      obtain ⟨w, c⟩ := x
      cases c with
      | A => simp [Cls.isDash] at hx
      | O t => simp [Cls.isDash] at hx
      | dash =>
        have := h.2 (s, .O t) (by simp)
        simp [Cls.isA] at this

theorem dash_of_isDash {x : Str × Cls} (h : x.2.isDash = true) : x.2 = .dash := by
  obtain ⟨s, c⟩ := x
  cases c <;> simp_all [Cls.isDash]

theorem DashOk.slice {rest : Args} (h : DashOk rest) {k : Nat} (hk : k ∈ candN 1 rest) :
    (((rest.take k).map (·.1)).erase c!"--").length = 1 := by
  obtain ⟨d1, s, d2, tl, rfl, rfl, h1, h2⟩ := candN1 hk
  have ht : (d1 ++ (s, Cls.A) :: d2 ++ tl).take (d1.length + 1 + d2.length) = d1 ++ (s, Cls.A) :: d2 := by
    rw [List.take_append_of_le_length (by simp; omega)]
    rw [List.take_of_length_le (by simp; omega)]
  rw [ht]
  match d1, h1, h with
  | [], _, h =>
    have hs : s ≠ c!"--" := h.1
    match d2, h2, h.2 with
    | [], _, _ => simp [hs]
    | (x, c) :: d2, h2, h =>
      have hc : c = .dash := dash_of_isDash (h2 (x, c) (by simp))
      subst hc
      have hx : x = c!"--" := h.1
      match d2, h2, h with
      | [], _, _ => simp [hs, hx]
      | y :: d2, h2, h =>
        have := h.2 y (by simp)
        have hy : y.2 = .dash := dash_of_isDash (h2 y (by simp))
        rw [hy] at this; simp [Cls.isA] at this
  | (x, c) :: d1, h1, h =>
    have hc : c = .dash := dash_of_isDash (h1 (x, c) (by simp))
    subst hc
    have hx : x = c!"--" := h.1
    have hA : ∀ y ∈ d1 ++ (s, Cls.A) :: d2, y.2.isA = true := fun y hy => h.2 y (by simp at hy ⊢; rcases hy with h | h | h <;> simp [h])
    match d1, h1 with
    | y :: d1, h1 =>
      have := hA y (by simp)
      have hy : y.2 = .dash := dash_of_isDash (h1 y (by simp))
      rw [hy] at this; simp [Cls.isA] at this
    | [], _ =>
      match d2, h2 with
      | y :: d2, h2 =>
        have := hA y (by simp)
        have hy : y.2 = .dash := dash_of_isDash (h2 y (by simp))
        rw [hy] at this; simp [Cls.isA] at this
      | [], _ => simp [hx]

theorem slice_noDash {rest : Args} (h : ∀ x ∈ rest, x.1 ≠ c!"--" ∧ x.2 ≠ .dash) {k : Nat} (hk : k ∈ candN 1 rest) :
    (((rest.take k).map (·.1)).erase c!"--").length = 1 := by
  obtain ⟨d1, s, d2, tl, rfl, rfl, h1, h2⟩ := candN1 hk
  match d1, h1, d2, h2 with
  | y :: d1, h1, _, _ => exact ((h y (by simp)).2 (dash_of_isDash (h1 y (by simp)))).elim
  | [], _, y :: d2, h2 => exact ((h y (by simp)).2 (dash_of_isDash (h2 y (by simp)))).elim
  | [], _, [], _ =>
    have hs : s ≠ c!"--" := (h (s, .A) (by simp)).1
    simp [hs]

/-- A first positional with `nargs=1` holds a list of one string. -/
theorem parseKnown_one {p : OptParser} {a : Action} (hs : p.Sole a) (hn : a.nargs = .n 1) (hf : p.initSt.positionals.head? = some a)
    {l : Option Int} {args : List Str} {ns : Ns} {ex : List Str} (h : p.parseKnown l args = .ok (ns, ex)) :
    (ns.getD a.dest).OneStr := by
  obtain ⟨xs, v, ⟨q, k, hD, hk, rfl⟩, hv, hg⟩ := parseKnown_pos hs h true (fun _ => hf) DashOk (fun cs hcs => classify_dashOk hcs)
    (fun s t tl k hD hk => DashOk.drop hD.2 hk) (fun pre s t tl _ hD => hD.noDash) (fun e => nomatch e)
  rw [Ns.getD, hg]
  rw [hn] at hk
  exact getValues_n1 hs.pos hn (hD.slice hk) hv

/-- Any positional with `nargs=1` holds a list of one string, if no argument is `--`. -/
theorem parseKnown_one' {p : OptParser} {a : Action} (hs : p.Sole a) (hn : a.nargs = .n 1)
    {l : Option Int} {args : List Str} (hd : c!"--" ∉ args) {ns : Ns} {ex : List Str} (h : p.parseKnown l args = .ok (ns, ex)) :
    (ns.getD a.dest).OneStr := by
  obtain ⟨xs, v, ⟨q, k, hD, hk, rfl⟩, hv, hg⟩ := parseKnown_pos hs h false (fun e => nomatch e) (fun q => ∀ x ∈ q, x.1 ≠ c!"--" ∧ x.2 ≠ .dash)
    (fun cs hcs x hx => by
      have hne : ∀ y ∈ cs, y.1 ≠ c!"--" := fun y hy e => hd (by rw [← classify_strings hcs, ← e]; exact List.mem_map_of_mem hy)
      refine ⟨hne x hx, ?_⟩
      have hok := classify_dashOk hcs
      clear hcs
      induction cs with
      | nil => simp at hx
      | cons y cs ih =>
        have hy : y.2.isDash = false := by
          cases hyd : y.2.isDash with
          | false => rfl
          | true =>
            obtain ⟨w, c⟩ := y
            have : c = .dash := dash_of_isDash hyd
            subst this
            exact (hne (w, .dash) (by simp) hok.1).elim
        rcases List.mem_cons.1 hx with rfl | hx
        · intro e; rw [e] at hy; simp [Cls.isDash] at hy
        · exact ih hx (fun z hz => hne z (by simp [hz])) (hok.skipA hy).1)
    (fun s t tl k hD hk x hx => hD x (List.mem_cons_of_mem _ (List.mem_of_mem_drop hx)))
    (fun pre s t tl _ hD x hx => hD x (List.mem_append_right _ hx))
    (fun _ p k hD x hx => hD x (List.mem_of_mem_drop hx))
  rw [Ns.getD, hg]
  rw [hn] at hk
  exact getValues_n1 hs.pos hn (slice_noDash hD hk) hv

/-- A positional with `nargs="*"` and no default holds a list. -/
theorem parseKnown_star {p : OptParser} {a : Action} (hs : p.Sole a) (hn : a.nargs = .star) (hd : a.default = .none)
    {l : Option Int} {args : List Str} {ns : Ns} {ex : List Str} (h : p.parseKnown l args = .ok (ns, ex)) :
    (ns.getD a.dest).IsList := by
  obtain ⟨xs, v, _, hv, hg⟩ := parseKnown_pos hs h false (fun e => nomatch e) (fun _ => True) (fun _ _ => trivial)
    (fun _ _ _ _ _ _ => trivial) (fun _ _ _ _ _ _ => trivial) (fun _ _ _ _ => trivial)
  rw [Ns.getD, hg]
  exact getValues_star hs.pos hn hd hv

/-- The first positional of the parser is `d`, with `nargs=1`. -/
def OptParser.OneFirst (p : OptParser) (d : Str) : Prop :=
  ∃ a ∈ p.initSt.positionals, p.Sole a ∧ a.dest = d ∧ a.nargs = .n 1 ∧ p.initSt.positionals.head? = some a

/-- A positional of the parser is `d`, with `nargs=1`. -/
def OptParser.OnePos (p : OptParser) (d : Str) : Prop :=
  ∃ a ∈ p.initSt.positionals, p.Sole a ∧ a.dest = d ∧ a.nargs = .n 1

/-- A positional of the parser is `d`, with `nargs="*"`. -/
def OptParser.StarPos (p : OptParser) (d : Str) : Prop :=
  ∃ a ∈ p.initSt.positionals, p.Sole a ∧ a.dest = d ∧ a.nargs = .star ∧ a.default = .none

instance (p : OptParser) (d : Str) : Decidable (p.OneFirst d) := by unfold OptParser.OneFirst; infer_instance
instance (p : OptParser) (d : Str) : Decidable (p.OnePos d) := by unfold OptParser.OnePos; infer_instance
instance (p : OptParser) (d : Str) : Decidable (p.StarPos d) := by unfold OptParser.StarPos; infer_instance

variable {p : OptParser} {d : Str} {l : Option Int} {args : List Str} {ns : Ns} {ex : List Str}

theorem OptParser.OneFirst.shape (hp : p.OneFirst d) (h : p.parseKnown l args = .ok (ns, ex)) : (ns.getD d).OneStr := by
  obtain ⟨a, _, h1, rfl, h2, h3⟩ := hp
  exact parseKnown_one h1 h2 h3 h

theorem OptParser.OnePos.shape (hp : p.OnePos d) (hd : c!"--" ∉ args) (h : p.parseKnown l args = .ok (ns, ex)) : (ns.getD d).OneStr := by
  obtain ⟨a, _, h1, rfl, h2⟩ := hp
  exact parseKnown_one' h1 h2 hd h

theorem OptParser.StarPos.shape (hp : p.StarPos d) (h : p.parseKnown l args = .ok (ns, ex)) : (ns.getD d).IsList := by
  obtain ⟨a, _, h1, rfl, h2, h3⟩ := hp
  exact parseKnown_star h1 h2 h3 h

/-- A positional with `nargs=1` holds a list whatever the arguments. -/
theorem OptParser.OnePos.isList (hp : p.OnePos d) (h : p.parseKnown l args = .ok (ns, ex)) : (ns.getD d).IsList := by
  obtain ⟨a, _, hs, rfl, hn⟩ := hp
  obtain ⟨xs, v, _, hv, hg⟩ := parseKnown_pos hs h false (fun e => nomatch e) (fun _ => True) (fun _ _ => trivial)
    (fun _ _ _ _ _ _ => trivial) (fun _ _ _ _ _ _ => trivial) (fun _ _ _ _ => trivial)
  rw [Ns.getD, hg]
  unfold getValues at hv
  simp only [hs.pos, if_true, hn] at hv
  match hl : xs.erase c!"--" with
  | [] => rw [hl] at hv; simp only [getValueList, Except.map] at hv; cases hv; trivial
  | s :: t =>
    rw [hl] at hv
    cases t with
    | nil =>
      simp only at hv
      cases hg : getValueList l a [s] with
      | error e => rw [hg] at hv; cases hv
      | ok ys => rw [hg] at hv; cases hv; trivial
    | cons s' t =>
      simp only at hv
      cases hg : getValueList l a (s :: s' :: t) with
      | error e => rw [hg] at hv; cases hv
      | ok ys => rw [hg] at hv; cases hv; trivial

/-! ## Types of destinations -/

/-- An action object of the parser. -/
def OptParser.Has (p : OptParser) (b : Action) : Prop := b ∈ p.actions ∨ ∃ n, (n, b) ∈ p.strings

/-- The attribute `d`, if present, satisfies `P`. -/
def Ns.Holds (ns : Ns) (d : Str) (P : Val → Prop) : Prop := ∀ v, ns.get d = some v → P v

theorem Ns.Holds.set {P : Val → Prop} {ns : Ns} {k : Str} {v : Val} (h : ns.Holds d P) (hv : k = d → P v) : (ns.set k v).Holds d P := by
  intro w hw
  rw [Ns.get_set] at hw
  split at hw
  · cases hw; exact hv (by assumption)
  · exact h w hw

theorem takeAction_holds {P : Val → Prop} {b : Action} {xs : List Str} {ns ns' : Ns}
    (hact : b.dest = d → ∀ xs v, (b.nargs = .one → b.opts ≠ [] → xs.length = 1) → getValues l b xs = .ok v → ∀ o, P o ∨ o = .none → P (actVal b v o))
    (hx : b.nargs = .one → b.opts ≠ [] → xs.length = 1) (h : takeAction l b xs ns = .ok ns') (h0 : ns.Holds d P) : ns'.Holds d P := by
  obtain ⟨v, hv, rfl⟩ := takeAction_ok h
  refine h0.set fun e => hact e xs v hx hv _ ?_
  unfold Ns.getD
  cases hg : ns.get b.dest with
  | none => exact .inr rfl
  | some o => exact .inl (h0 o (e ▸ hg))

theorem takePositionals_holds {P : Val → Prop} {as : List Action} {ks : List Nat} {st st' : LoopSt} {rest rest' : Args}
    (hpos : ∀ b ∈ as, b.opts = [])
    (hact : ∀ b ∈ as, b.dest = d → ∀ xs v, (b.nargs = .one → b.opts ≠ [] → xs.length = 1) → getValues l b xs = .ok v → ∀ o, P o ∨ o = .none → P (actVal b v o))
    (h : takePositionals l as ks st rest = .ok (st', rest')) (h0 : st.ns.Holds d P) : st'.ns.Holds d P := by
  induction as generalizing ks st rest with
  | nil =>
    simp only [takePositionals, Except.ok.injEq, Prod.mk.injEq] at h
    rw [← h.1]; exact h0
  | cons a as ih =>
    cases ks with
    | nil =>
      simp only [takePositionals, Except.ok.injEq, Prod.mk.injEq] at h
      rw [← h.1]; exact h0
    | cons k ks =>
      simp only [takePositionals] at h
      split at h
      · cases h
      · rename_i ns hns
        refine ih (fun b hb => hpos b (by simp [hb])) (fun b hb => hact b (by simp [hb])) h ?_
        exact takeAction_holds (hact a (by simp)) (fun _ h => (h (hpos a (by simp))).elim) hns h0

theorem consumeOptional_holds {P : Val → Prop} {st st' : LoopSt} {s : Str} {t : OptTuple} {rest rest' : Args}
    (hact : ∀ b, t.action = some b → b.dest = d → ∀ xs v, (b.nargs = .one → b.opts ≠ [] → xs.length = 1) → getValues l b xs = .ok v → ∀ o, P o ∨ o = .none → P (actVal b v o))
    (h : consumeOptional l st s t rest = .ok (st', rest')) (h0 : st.ns.Holds d P) : st'.ns.Holds d P := by
  unfold consumeOptional at h
  split at h
  · simp only [Except.ok.injEq, Prod.mk.injEq] at h; rw [← h.1]; exact h0
  · rename_i a ha
    split at h
    · split at h
      · split at h
        · cases h
        · rename_i hns; simp only [Except.ok.injEq, Prod.mk.injEq] at h; rw [← h.1]; exact takeAction_holds (hact a ha) (fun _ _ => rfl) hns h0
      · cases h
      · cases h
    · split at h
      · cases h
      · rename_i k hk
        split at h
        · cases h
        · rename_i hns
          simp only [Except.ok.injEq, Prod.mk.injEq] at h; rw [← h.1]
          refine takeAction_holds (hact a ha) (fun h1 _ => ?_) hns h0
          simp only [matchOptional, h1] at hk
          split at hk
          · rename_i hle
            cases hk
            have := (List.takeWhile_sublist (fun x : Str × Cls => x.2.isA) (l := rest)).length_le
            rw [List.length_map, List.length_take]; omega
          · cases hk

theorem finish_holds {P : Val → Prop} {seen : List Nat} {as : List Action} {ns ns' : Ns} {m m' : Bool}
    (hfin : ∀ b ∈ as, b.dest = d → ∀ s v, b.default = .str s → getValue l b s = .ok v → P v)
    (h : finish l seen as ns m = .ok (ns', m')) (h0 : ns.Holds d P) : ns'.Holds d P := by
  induction as generalizing ns m with
  | nil =>
    simp only [finish, Except.ok.injEq, Prod.mk.injEq] at h
    rw [← h.1]; exact h0
  | cons a as ih =>
    have ih := fun {ns m} => @ih ns m (fun b hb => hfin b (by simp [hb]))
    rw [finish] at h
    split at h
    · exact ih h h0
    · split at h
      · exact ih h h0
      · split at h
        · rename_i s hs
          split at h
          · split at h
            · cases h
            · rename_i v hv
              exact ih h (h0.set fun e => hfin a (by simp) e s v hs hv)
          · exact ih h h0
        · exact ih h h0

theorem defaults_holds {P : Val → Prop} (as : List Action) (ns : Ns) (hdef : ∀ b ∈ as, b.dest = d → P b.default) (h0 : ns.Holds d P) :
    (as.foldl (fun ns a => if (ns.get a.dest).isNone then ns.set a.dest a.default else ns) ns).Holds d P := by
  induction as generalizing ns with
  | nil => exact h0
  | cons a as ih =>
    rw [List.foldl_cons]
    refine ih _ (fun b hb => hdef b (by simp [hb])) ?_
    split
    · exact h0.set fun e => hdef a (by simp) e
    · exact h0

/-- What all actions with destination `d` store satisfies `P`, so the namespace's `d` does. -/
theorem parseKnown_holds {P : Val → Prop} (hdef : ∀ b ∈ p.actions, b.dest = d → P b.default)
    (hact : ∀ b, p.Has b → b.dest = d → ∀ xs v, (b.nargs = .one → b.opts ≠ [] → xs.length = 1) → getValues l b xs = .ok v → ∀ o, P o ∨ o = .none → P (actVal b v o))
    (hfin : ∀ b ∈ p.actions, b.dest = d → ∀ s v, b.default = .str s → getValue l b s = .ok v → P v)
    (h : p.parseKnown l args = .ok (ns, ex)) : ns.Holds d P := by
  unfold OptParser.parseKnown at h
  split at h
  · cases h
  rename_i cs hcs
  split at h
  · cases h
  rename_i st rest hloop
  split at h
  · cases h
  rename_i ns' missing hf
  split at h
  · cases h
  simp only [Except.ok.injEq, Prod.mk.injEq] at h
  obtain ⟨rfl, -⟩ := h
  refine finish_holds hfin hf ?_
  refine parseLoop_inv
    (fun st rest => (∀ b ∈ st.positionals, b ∈ p.actions ∧ b.opts = []) ∧ (∀ x ∈ rest, x ∈ cs) ∧ st.ns.Holds d P)
    (fun st _ => st.ns.Holds d P) ?_ ?_ ?_ (fun _ _ _ h => h.2.2) _ _ _ (Nat.lt_succ_self _) ⟨?_, fun _ h => h, ?_⟩ hloop
  · intro st s t tl st' rest' ⟨hp, hc, h0⟩ hco
    obtain ⟨⟨k, hk, hr⟩, _, hpe⟩ := consumeOptional_ok hco
    refine ⟨by rw [hpe]; exact hp, ?_, consumeOptional_holds (fun b hb => ?_) hco h0⟩
    · intro x hx; rw [hr] at hx; exact hc x (List.mem_cons_of_mem _ (List.mem_of_mem_drop hx))
    · obtain ⟨_, hpo⟩ := classify_mem hcs (hc (s, .O t) (by simp))
      obtain ⟨n, hn⟩ := parseOptional_action hpo hb
      exact hact b (.inr ⟨n, hn.1⟩)
  · intro st pre tl _ ⟨hp, hc, h0⟩
    exact ⟨hp, fun x hx => hc x (by simp [hx]), h0⟩
  · intro st rest st' rest' ⟨hp, hc, h0⟩ hco
    obtain ⟨_, ⟨k, hk, hr⟩, n, hpos⟩ := consumePositionals_ok hco
    refine ⟨fun b hb => hp b (by rw [hpos] at hb; exact List.mem_of_mem_drop hb), ?_, ?_⟩
    · intro x hx; rw [hr] at hx; exact hc x (List.mem_of_mem_drop hx)
    · unfold consumePositionals at hco
      simp only at hco
      split at hco
      · cases hco
      · rename_i st1 rest1 ht
        simp only [Except.ok.injEq, Prod.mk.injEq] at hco
        have := takePositionals_holds (fun b hb => (hp b hb).2) (fun b hb => hact b (.inl (hp b hb).1)) ht h0
        rw [← hco.1]; exact this
  · intro b hb; exact ⟨(List.mem_filter.1 hb).1, by simpa using (List.mem_filter.1 hb).2⟩
  · exact defaults_holds _ _ hdef fun v hv => by cases hv

/-- All options with destination `d` store one string. -/
def OptParser.StrDest (p : OptParser) (d : Str) : Prop :=
  ∀ b ∈ p.actions ++ p.strings.map (·.2), b.dest = d → b.kind = .store ∧ b.nargs = .one ∧ b.ty = .str ∧ b.opts ≠ [] ∧ (b.default = .none ∨ b.default.isStr = true)

instance (p : OptParser) (d : Str) : Decidable (p.StrDest d) := by unfold OptParser.StrDest; infer_instance

def Val.StrOrNone (v : Val) : Prop := v = .none ∨ v.isStr = true

theorem OptParser.StrDest.shape (hp : p.StrDest d) (h : p.parseKnown l args = .ok (ns, ex)) : (ns.getD d).StrOrNone := by
  have hpp : ∀ b, p.Has b → b.dest = d → b.kind = .store ∧ b.nargs = .one ∧ b.ty = .str ∧ b.opts ≠ [] ∧ (b.default = .none ∨ b.default.isStr = true) := by
    rintro b (hb | ⟨n, hn⟩) e
    · exact hp b (by simp [hb]) e
    · exact hp b (List.mem_append_right _ (List.mem_map.2 ⟨_, hn, rfl⟩)) e
  have hval : ∀ (b : Action) (s : Str) (v : Val), b.ty = .str → getValue l b s = .ok v → v = .str s := by
    intro b s v hty hv
    simp only [getValue, Action.type, hty, Ty.run] at hv
    cases hv; rfl
  have := parseKnown_holds (P := Val.StrOrNone) (d := d) (fun b hb e => (hpp b (.inl hb) e).2.2.2.2) ?_ ?_ h
  · unfold Ns.getD
    cases hg : ns.get d with
    | none => exact .inl rfl
    | some v => exact this v hg
  · intro b hb e xs v hx hv o _
    obtain ⟨h1, h2, h3, h4, _⟩ := hpp b hb e
    rw [actVal, h1]
    have hx := hx h2 h4
    match xs, hx with
    | [s], _ =>
      simp only [getValues, h4, if_false, h2, bind, Except.bind, pure, Except.pure] at hv
      split at hv
      · cases hv
      · rename_i w hw
        split at hv
        · cases hv
        · cases hv; rw [hval b _ v h3 hw]; exact .inr rfl
  · intro b hb e s v _ hv
    rw [hval b s v (hpp b (.inl hb) e).2.2.1 hv]; exact .inr rfl

/-! ## Required options -/

/-- `parse_known_args` has used an option with destination `d`. -/
theorem consumeOptional_set {P : Val → Prop} {st st' : LoopSt} {s : Str} {t : OptTuple} {rest rest' : Args} {b : Action}
    (hb : t.action = some b) (hk : b.kind = .store) 
    (hact : ∀ xs v, (b.nargs = .one → xs.length = 1) → getValues l b xs = .ok v → P v)
    (h : consumeOptional l st s t rest = .ok (st', rest')) : ∃ v, st'.ns.get b.dest = some v ∧ P v := by
  have key : ∀ (xs : List Str) (ns : Ns), (b.nargs = .one → xs.length = 1) → takeAction l b xs st.ns = .ok ns → ∃ v, ns.get b.dest = some v ∧ P v := by
    intro xs ns hx hns
    obtain ⟨v, hv, rfl⟩ := takeAction_ok hns
    refine ⟨v, ?_, hact xs v hx hv⟩
    rw [Ns.get_set, if_pos rfl, actVal, hk]
  unfold consumeOptional at h
  rw [hb] at h
  simp only at h
  split at h
  · split at h
    · split at h
      · cases h
      · rename_i hns; simp only [Except.ok.injEq, Prod.mk.injEq] at h; rw [← h.1]; exact key _ _ (fun _ => rfl) hns
    · cases h
    · cases h
  · split at h
    · cases h
    · rename_i k hk'
      split at h
      · cases h
      · rename_i hns
        simp only [Except.ok.injEq, Prod.mk.injEq] at h; rw [← h.1]
        refine key _ _ (fun h1 => ?_) hns
        simp only [matchOptional, h1] at hk'
        split at hk'
        · rename_i hle
          cases hk'
          have := (List.takeWhile_sublist (fun x : Str × Cls => x.2.isA) (l := rest)).length_le
          rw [List.length_map, List.length_take]; omega
        · cases hk'

/-- After a successful parse the destination of a required option holds a value that it was given. -/
theorem parseKnown_given {P : Val → Prop} {a : Action} (ha : a ∈ p.actions) (hreq : a.required = true)
    (hid : ∀ b, p.Has b → (b.dest = d ↔ b.id = a.id))
    (hact : ∀ b, p.Has b → b.dest = d → b.kind = .store ∧ b.opts ≠ [] ∧ ∀ xs v, (b.nargs = .one → xs.length = 1) → getValues l b xs = .ok v → P v)
    (h : p.parseKnown l args = .ok (ns, ex)) : ∃ v, ns.get d = some v ∧ P v := by
  unfold OptParser.parseKnown at h
  split at h
  · cases h
  rename_i cs hcs
  split at h
  · cases h
  rename_i st rest hloop
  split at h
  · cases h
  rename_i ns' missing hf
  split at h
  · cases h
  rename_i hm
  simp only [Except.ok.injEq, Prod.mk.injEq] at h
  obtain ⟨rfl, -⟩ := h
  have hmiss : missing = false := by simpa using hm
  subst hmiss
  have hseen := (finish_missing hf).2 a ha hreq
  rw [finish_get hf fun b hb e => .inl (by rw [(hid b (.inl hb)).1 e]; exact hseen)]
  refine parseLoop_inv
    (fun st rest => (∀ b ∈ st.positionals, b ∈ p.actions ∧ b.opts = []) ∧ (∀ x ∈ rest, x ∈ cs) ∧ (a.id ∈ st.seen → ∃ v, st.ns.get d = some v ∧ P v))
    (fun st _ => a.id ∈ st.seen → ∃ v, st.ns.get d = some v ∧ P v) ?_ ?_ ?_ (fun _ _ _ h => h.2.2) _ _ _ (Nat.lt_succ_self _) ⟨?_, fun _ h => h, ?_⟩ hloop hseen
  · intro st s t tl st' rest' ⟨hp, hc, h0⟩ hco
    obtain ⟨⟨k, hk, hr⟩, hcase, hpe⟩ := consumeOptional_ok hco
    refine ⟨by rw [hpe]; exact hp, ?_, fun hs => ?_⟩
    · intro x hx; rw [hr] at hx; exact hc x (List.mem_cons_of_mem _ (List.mem_of_mem_drop hx))
    · have hhas : ∀ b, t.action = some b → p.Has b := fun b hb => by
        obtain ⟨_, hpo⟩ := classify_mem hcs (hc (s, .O t) (by simp))
        obtain ⟨n, hn⟩ := parseOptional_action hpo hb
        exact .inr ⟨n, hn.1⟩
      by_cases hd : ∃ b, t.action = some b ∧ b.dest = d
      · obtain ⟨b, hb, rfl⟩ := hd
        obtain ⟨h1, h2, h3⟩ := hact b (hhas b hb) rfl
        exact consumeOptional_set hb h1 h3 hco
      · rw [consumeOptional_get hco fun b hb e => hd ⟨b, hb, e⟩]
        refine h0 ?_
        rcases hcase with ⟨_, _, hs', _⟩ | ⟨b, hb, _, hs'⟩
        · rw [← hs']; exact hs
        · rw [hs'] at hs
          rcases List.mem_cons.1 hs with e | hs
          · exact (hd ⟨b, hb, (hid b (hhas b hb)).2 e.symm⟩).elim
          · exact hs
  · intro st pre tl _ ⟨hp, hc, h0⟩
    exact ⟨hp, fun x hx => hc x (by simp [hx]), h0⟩
  · intro st rest st' rest' ⟨hp, hc, h0⟩ hco
    obtain ⟨_, ⟨k, hk, hr⟩, n, hpos⟩ := consumePositionals_ok hco
    refine ⟨fun b hb => hp b (by rw [hpos] at hb; exact List.mem_of_mem_drop hb), ?_, fun hs => ?_⟩
    · intro x hx; rw [hr] at hx; exact hc x (List.mem_of_mem_drop hx)
    · have hne : ∀ b ∈ st.positionals, b.dest ≠ d := fun b hb e => (hact b (.inl (hp b hb).1) e).2.1 (hp b hb).2
      unfold consumePositionals at hco
      simp only at hco
      split at hco
      · cases hco
      · rename_i st1 rest1 ht
        simp only [Except.ok.injEq, Prod.mk.injEq] at hco
        rw [← hco.1] at hs ⊢
        show ∃ v, st1.ns.get d = some v ∧ P v
        rw [takePositionals_get ht hne]
        rcases takePositionals_seen ht _ hs with h1 | ⟨b, hb, e⟩
        · exact h0 h1
        · exact (hne b hb ((hid b (.inl (hp b hb).1)).2 e)).elim
  · intro b hb; exact ⟨(List.mem_filter.1 hb).1, by simpa using (List.mem_filter.1 hb).2⟩
  · intro h; cases h

/-- The converters whose result is a string. -/
def Ty.toStr : Ty → Bool
  | .str | .md | .part | .mount => true
  | .table _ tbl => tbl.all fun kv => kv.2.isStr
  | _ => false

theorem Ty.toStr_run {t : Ty} (h : t.toStr = true) {s : Str} {v : Val} (hv : t.run s = .ok v) : v.isStr = true := by
  cases t with
  | str => simp only [Ty.run] at hv; cases hv; rfl
  | md => simp only [Ty.run] at hv; cases hv; rfl
  | part => simp only [Ty.run] at hv; cases hv; rfl
  | mount => simp only [Ty.run, tyMount] at hv; cases hv; rfl
  | table up tbl =>
    simp only [Ty.run] at hv
    split at hv
    · rename_i w hw
      cases hv
      have := List.lookup_eq_some_iff.1 hw
      obtain ⟨l1, l2, rfl, _⟩ := this
      simp [Ty.toStr] at h
      exact h.2.1
    · cases hv
  | _ => cases h

/-- The options with destination `d` are one required option that stores one string. -/
def OptParser.ReqStr (p : OptParser) (d : Str) : Prop :=
  ∃ a ∈ p.actions, a.required = true ∧ ∀ b ∈ p.actions ++ p.strings.map (·.2), (b.dest = d ↔ b.id = a.id) ∧
    (b.dest = d → b.kind = .store ∧ b.nargs = .one ∧ b.ty.toStr = true ∧ b.opts ≠ [])

instance (p : OptParser) (d : Str) : Decidable (p.ReqStr d) := by unfold OptParser.ReqStr; infer_instance

theorem OptParser.ReqStr.shape (hp : p.ReqStr d) (h : p.parseKnown l args = .ok (ns, ex)) : ∃ s, ns.get d = some (.str s) := by
  obtain ⟨a, ha, hreq, hall⟩ := hp
  have hpp : ∀ b, p.Has b → (b.dest = d ↔ b.id = a.id) ∧ (b.dest = d → b.kind = .store ∧ b.nargs = .one ∧ b.ty.toStr = true ∧ b.opts ≠ []) := by
    rintro b (hb | ⟨n, hn⟩)
    · exact hall b (by simp [hb])
    · exact hall b (List.mem_append_right _ (List.mem_map.2 ⟨_, hn, rfl⟩))
  have hact : ∀ b, p.Has b → b.dest = d → b.kind = .store ∧ b.opts ≠ [] ∧
      ∀ xs v, (b.nargs = .one → xs.length = 1) → getValues l b xs = .ok v → v.isStr = true := by
    intro b hb e
    obtain ⟨h1, h2, h3, h4⟩ := (hpp b hb).2 e
    refine ⟨h1, h4, fun xs v hx hv => ?_⟩
    have hx := hx h2
    match xs, hx with
    | [s], _ =>
      simp only [getValues, h4, if_false, h2, bind, Except.bind, pure, Except.pure] at hv
      split at hv
      · cases hv
      · rename_i w hw
        split at hv
        · cases hv
        · cases hv
          simp only [getValue] at hw
          split at hw <;> first | (cases hw; done) | skip
          rename_i ht
          cases hw
          exact Ty.toStr_run h3 ht
  obtain ⟨v, hv, hs⟩ := parseKnown_given (P := fun v => v.isStr = true) (d := d) ha hreq (fun b hb => (hpp b hb).1) hact h
  cases v with
  | str s => exact ⟨s, hv⟩
  | _ => cases hs

end Ks
