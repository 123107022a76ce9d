import Verif.Commands.ReadBack
/-!
# The check is sound
-/
namespace Ks

/-! ## Conditions and words look at the attributes they name -/

theorem eval_congr {self self' : Ns} {c : Cond} (h : ∀ k ∈ c.keys, self.get k = self'.get k) : c.eval self = c.eval self' := by
  induction c with
  | tt => rfl
  | not c ih => simp only [Cond.eval, ih h]
  | and a b iha ihb =>
    simp only [Cond.eval, iha fun k hk => h k (List.mem_append_left _ hk), ihb fun k hk => h k (List.mem_append_right _ hk)]
  | or a b iha ihb =>
    simp only [Cond.eval, iha fun k hk => h k (List.mem_append_left _ hk), ihb fun k hk => h k (List.mem_append_right _ hk)]
  | gt k n => simp only [Cond.eval, Ns.getD, h k (List.mem_singleton.2 rfl)]; rfl
  | _ => simp only [Cond.eval, Ns.getD, h _ (List.mem_singleton.2 rfl)]

theorem get_envOf (k : Str) (o : Option Val) : (envOf k o).get k = o := by
  cases o with
  | none => rfl
  | some v => simp [envOf, Ns.get]

theorem admits_of_eval {self : Ns} {c : Cond} (h : c.eval self = true) (k : Str) : c.admits k (self.get k) = true := by
  unfold Cond.admits
  rw [List.all_eq_true]
  intro x hx
  by_cases hk : x.keys.all (· == k) = true
  · rw [Bool.or_eq_true]; right
    rw [← eval_congr (self := self)]
    · exact (eval_conj self c).1 h x hx
    · intro k' hk'
      have : k' = k := by simpa using List.all_eq_true.1 hk k' hk'
      rw [this, get_envOf]
  · simp [hk]

theorem meant_congr {self self' : Ns} {f : Frag} (hl : f.isLit = false) (h : self.get f.key = self'.get f.key) : f.meant self = f.meant self' := by
  cases f <;> first | (simp [Frag.isLit] at hl; done) | simp only [Frag.meant, Frag.render, Ns.getD, Frag.key] at h ⊢ <;> rw [h]

theorem wordOf_env {self : Ns} {k : Str} {w : List Sym}
    (h : w.all (fun s => match s with | .ch _ => true | .fr f => f.key == k && !f.isLit) = true) : wordOf self w = wordOf (envOf k (self.get k)) w := by
  unfold wordOf
  congr 1
  apply List.map_congr_left
  intro s hs
  have := List.all_eq_true.1 h s hs
  cases s with
  | ch c => rfl
  | fr f =>
    simp only [Bool.and_eq_true, beq_iff_eq, Bool.not_eq_true'] at this
    simp only [Sym.meant]
    exact meant_congr this.2 (by rw [this.1, get_envOf])

/-! ## Values -/

theorem getValues_ok_line {l l' : Option Int} {a : Action} {xs : List Str} {v : Val} (h : getValues l a xs = .ok v) : getValues l' a xs = .ok v := by
  rcases (getValues_lsame l l' a xs).cases with ⟨x, h1, h2⟩ | ⟨e, f, h1, -, -⟩
  · rw [h1] at h; injection h with h; rw [h2, h]
  · rw [h1] at h; cases h

theorem mem_acts {p : OptParser} {b : Action} {k : Str} : b ∈ p.acts k ↔ p.Has b ∧ b.dest = k := by
  simp only [OptParser.acts, OptParser.Has, List.mem_filter, List.mem_append, List.mem_map, Prod.exists, decide_eq_true_eq]
  constructor
  · rintro ⟨h | ⟨n, c, h, rfl⟩, e⟩
    · exact ⟨.inl h, e⟩
    · exact ⟨.inr ⟨n, h⟩, e⟩
  · rintro ⟨h | ⟨n, h⟩, e⟩
    · exact ⟨.inl h, e⟩
    · exact ⟨.inr ⟨n, b, h, rfl⟩, e⟩

/-- One value converted and checked. -/
theorem getValues_single {l : Option Int} {a : Action} {xs : List Str} {v : Val} (ho : a.opts ≠ []) (hn : a.nargs = .one) (hx : xs.length = 1)
    (h : getValues l a xs = .ok v) : ∃ s, xs = [s] ∧ getValue l a s = .ok v ∧ checkValue l a v = .ok () := by
  match xs, hx with
  | [s], _ =>
    refine ⟨s, rfl, ?_⟩
    unfold getValues at h
    simp only [if_neg ho, hn] at h
    cases hv : getValue l a s with
    | error e => rw [hv] at h; cases h
    | ok v' =>
      rw [hv] at h
      simp only [bind, Except.bind] at h
      cases hc : checkValue l a v' with
      | error e => rw [hc] at h; cases h
      | ok u =>
        rw [hc] at h
        simp only [pure, Except.pure, Except.ok.injEq] at h
        subst h
        exact ⟨rfl, hc⟩

theorem getValues_of_one {l : Option Int} {a : Action} {s : Str} {v : Val} (ho : a.opts ≠ []) (hn : a.nargs = .one)
    (h1 : getValue l a s = .ok v) (h2 : checkValue l a v = .ok ()) : getValues l a [s] = .ok v := by
  unfold getValues
  simp only [if_neg ho, hn, h1, bind, Except.bind, h2, pure, Except.pure]

theorem values_sound {l : Option Int} {b : Action} {vs : List Val} (hv : b.values = some vs) (ho : b.opts ≠ []) {xs : List Str} {v : Val}
    (hx : b.nargs = .one → b.opts ≠ [] → xs.length = 1) (h : getValues l b xs = .ok v) (old : Val) : actVal b v old ∈ vs := by
  unfold Action.values at hv
  split at hv
  · rename_i hk
    simp only [Option.some.injEq] at hv
    subst hv
    simp [actVal, hk]
  · rename_i hk hn
    obtain ⟨s, rfl, hg, hc⟩ := getValues_single ho hn (hx hn ho) h
    simp only [actVal, hk]
    split at hv
    · rename_i up tbl hty
      simp only [Option.some.injEq] at hv
      subst hv
      simp only [getValue, Action.type, hty, Ty.run] at hg
      cases hl : List.lookup (if up = true then upper s else lower s) tbl with
      | none => rw [hl] at hg; cases hg
      | some v' =>
        rw [hl] at hg
        simp only [Except.ok.injEq] at hg
        subst hg
        exact List.mem_map.2 ⟨_, lookup_mem_pair hl, rfl⟩
    · rename_i hty
      simp only [Option.some.injEq] at hv
      subst hv
      simp only [getValue, Action.type, hty, Ty.run, tyBool] at hg
      cases hl : ksboolean s with
      | none => rw [hl] at hg; cases hg
      | some v' =>
        rw [hl] at hg
        simp only [Except.ok.injEq] at hg
        subst hg
        cases v' <;> simp
    · rename_i cs hty hch
      simp only [Option.some.injEq] at hv
      subst hv
      simp only [getValue, Action.type, hty, Ty.run, Except.ok.injEq] at hg
      subst hg
      simp only [checkValue, hch] at hc
      split at hc
      · rename_i hm
        exact List.mem_map.2 ⟨s, hm, rfl⟩
      · cases hc
    · cases hv
  · cases hv

/-- No conversion but a table gives `None`. -/
theorem getValue_ne_none {l : Option Int} {a : Action} {s : Str} {v : Val} (ht : a.ty.isTable = false) (h : getValue l a s = .ok v) : v ≠ .none := by
  simp only [getValue, Action.type] at h
  cases hty : a.ty with
  | table up tbl => rw [hty] at ht; cases ht
  | int =>
    rw [hty] at h
    simp only [Ty.run, tyInt] at h
    cases hp : pyInt s with
    | none => rw [hp] at h; cases h
    | some n => rw [hp] at h; injection h with h; subst h; simp
  | bool =>
    rw [hty] at h
    simp only [Ty.run, tyBool] at h
    cases hp : ksboolean s with
    | none => rw [hp] at h; cases h
    | some n => rw [hp] at h; injection h with h; subst h; simp
  | _ =>
    rw [hty] at h
    simp only [Ty.run, tyComma, tyMount, Except.ok.injEq] at h
    subst h
    simp

/-- The value `o` comes from an option that can store infinitely many values. -/
def FromOpt (p : OptParser) (k : Str) (o : Option Val) : Prop :=
  ∃ b ∈ p.infs k, b.opts ≠ [] ∧ ∃ l xs v, (b.nargs = .one → b.opts ≠ [] → xs.length = 1) ∧ getValues l b xs = .ok v ∧ o = some (actVal b v .none)

theorem actVal_old {b : Action} (h : b.kind = .store ∨ b.kind = .storeConst) (v o o' : Val) : actVal b v o = actVal b v o' := by
  rcases h with h | h <;> simp [actVal, h]

theorem nice_iff {p : OptParser} {k : Str} (h : p.nice k = true) {b : Action} (hb : p.Has b) (e : b.dest = k) :
    b.opts ≠ [] ∧ (b.kind = .store ∨ b.kind = .storeConst) ∧ (b.default.isStr = false ∨ b.ty = .str) := by
  have := List.all_eq_true.1 h b (mem_acts.2 ⟨hb, e⟩)
  simp only [Bool.and_eq_true, Bool.or_eq_true, decide_eq_true_eq, Bool.not_eq_true', List.isEmpty_eq_false_iff] at this
  exact ⟨this.1.1, this.1.2, this.2⟩

/-- What a nice attribute can be after a successful parse. -/
theorem value_cases {p : OptParser} {init ns : Ns} {k : Str} {l : Option Int} {args ex : List Str} (hn : p.nice k = true)
    (h : p.parseKnown l args = .ok (ns, ex)) :
    (((setToObj ns init).get k ∈ p.cands init k) ∨ FromOpt p k ((setToObj ns init).get k)) ∧
      ((setToObj ns init).get k = some .none → init.get k = some .none) := by
  have hk : ns.keys.Nodup := C16_known_keys p l args ns ex h
  have hset := C16_set_to_obj ns init hk k
  have hval : ∀ b, p.Has b → b.dest = k → ∀ xs v, (b.nargs = .one → b.opts ≠ [] → xs.length = 1) → getValues l b xs = .ok v → ∀ o,
      some (actVal b v o) ∈ p.cands init k ∨ FromOpt p k (some (actVal b v o)) := by
    intro b hb e xs v hx hv o
    obtain ⟨h1, h2, h3⟩ := nice_iff hn hb e
    cases hvs : b.values with
    | none =>
      right
      exact ⟨b, List.mem_filter.2 ⟨mem_acts.2 ⟨hb, e⟩, by rw [hvs]; rfl⟩, h1, l, xs, v, hx, hv, by rw [actVal_old h2 v o .none]⟩
    | some vs =>
      left
      unfold OptParser.cands
      refine List.mem_append_right _ (List.mem_flatMap.2 ⟨b, mem_acts.2 ⟨hb, e⟩, ?_⟩)
      rw [hvs]
      exact List.mem_map.2 ⟨_, values_sound hvs h1 hx hv o, rfl⟩
  refine ⟨?_, ?_⟩
  · by_cases hneed : p.needed k = true
    · have hneed' := hneed
      unfold OptParser.needed at hneed'
      simp only [Bool.and_eq_true, List.any_eq_true, decide_eq_true_eq, List.all_eq_true, beq_iff_eq] at hneed'
      obtain ⟨hst, a, ha, hreq, hid⟩ := hneed'
      obtain ⟨v, hv, hP, hne⟩ := parseKnown_given (P := fun v => (some v ∈ p.cands init k ∨ FromOpt p k (some v)) ∧ v ≠ .none) (d := k) ha hreq
        (fun b hb => by
          have hm : b ∈ p.actions ++ p.strings.map (·.2) := by
            rcases hb with hb | ⟨n, hb⟩
            · exact List.mem_append_left _ hb
            · exact List.mem_append_right _ (List.mem_map.2 ⟨_, hb, rfl⟩)
          have := hid b hm
          simpa using this)
        (fun b hb e => by
          obtain ⟨h1, -, -⟩ := nice_iff hn hb e
          obtain ⟨⟨hs, hone⟩, htab⟩ := hst b (mem_acts.2 ⟨hb, e⟩)
          refine ⟨hs, h1, fun xs v hx hv => ⟨?_, ?_⟩⟩
          · have := hval b hb e xs v (fun h _ => hx h) hv .none
            simpa [actVal, hs] using this
          · obtain ⟨s, -, hg, -⟩ := getValues_single h1 hone (hx hone) hv
            exact getValue_ne_none (by simpa using htab) hg) h
      rw [hset, hv]
      cases v with
      | none => exact absurd rfl hne
      | _ => exact hP
    · have hh : ns.Holds k fun v => (∃ b ∈ p.acts k, v = b.default) ∨ some v ∈ p.cands init k ∨ FromOpt p k (some v) := by
        refine parseKnown_holds ?_ ?_ ?_ h
        · intro b hb e
          exact .inl ⟨b, mem_acts.2 ⟨.inl hb, e⟩, rfl⟩
        · intro b hb e xs v hx hv o _
          exact .inr (hval b hb e xs v hx hv o)
        · intro b hb e s v hd hv
          obtain ⟨h1, h2, h3⟩ := nice_iff hn (.inl hb) e
          left
          refine ⟨b, mem_acts.2 ⟨.inl hb, e⟩, ?_⟩
          rcases h3 with h3 | h3
          · rw [hd] at h3; cases h3
          · simp only [getValue, Action.type, h3, Ty.run, Except.ok.injEq] at hv
            rw [hd, hv]
      have hinit : init.get k ∈ p.cands init k := by
        unfold OptParser.cands
        rw [if_neg hneed]
        simp
      rw [hset]
      cases hg : ns.get k with
      | none => exact .inl hinit
      | some v =>
        have := hh v hg
        have hv : some v ∈ p.cands init k ∨ FromOpt p k (some v) := by
          rcases this with ⟨b, hb, rfl⟩ | this
          · left
            unfold OptParser.cands
            rw [if_neg hneed]
            exact List.mem_append_left _ (List.mem_cons_of_mem _ (List.mem_map.2 ⟨b, hb, rfl⟩))
          · exact this
        cases v with
        | none => exact .inl hinit
        | _ => exact hv
  · rw [hset]
    intro e
    split at e
    · exact e
    · rename_i v hv hg
      simp only [Option.some.injEq] at e
      exact (hv e).elim
    · exact e

/-! ## Words -/

/-- The word that a symbolic argument stands for. -/
def mixOf (self : Ns) : SymArg → MixArg
  | .pos w => .pos (wordOf self w)
  | .opt n v => .tok ⟨n, v.map (wordOf self)⟩

theorem optName_sound {self : Ns} {w : List Sym} {n : Str} {v : Option (List Sym)} (h : optName w = some (n, v)) :
    wordOf self w = n ++ valText (v.map (wordOf self)) := by
  induction w generalizing n v with
  | nil =>
    simp only [optName, Option.some.injEq, Prod.mk.injEq] at h
    obtain ⟨rfl, rfl⟩ := h
    rfl
  | cons s t ih =>
    cases s with
    | ch c =>
      simp only [optName] at h
      split at h
      · rename_i e
        simp only [Option.some.injEq, Prod.mk.injEq] at h
        obtain ⟨rfl, rfl⟩ := h
        subst e
        rfl
      · cases ho : optName t with
        | none => rw [ho] at h; cases h
        | some x =>
          obtain ⟨n', v'⟩ := x
          rw [ho] at h
          simp only [Option.map_some, Option.some.injEq, Prod.mk.injEq] at h
          obtain ⟨rfl, rfl⟩ := h
          have := ih ho
          simp only [wordOf, List.map_cons, List.flatten_cons, Sym.meant, List.cons_append, List.nil_append] at this ⊢
          rw [this]
    | fr f => simp [optName] at h

theorem symArg_sound {self : Ns} {w : List Sym} {a : SymArg} (h : symArg w = some a) : wordOf self w = (mixOf self a).text := by
  unfold symArg at h
  split at h
  · rename_i t
    cases ho : optName t with
    | none => rw [ho] at h; cases h
    | some x =>
      obtain ⟨n, v⟩ := x
      rw [ho] at h
      simp only [Option.map_some, Option.some.injEq] at h
      subst h
      have := optName_sound (self := self) ho
      simp only [mixOf, MixArg.text, Tok.text, List.cons_append]
      rw [← this]
      rfl
  · simp only [Option.some.injEq] at h
    subst h
    rfl

theorem mapM_sound {self : Ns} {ws : List (List Sym)} {as : List SymArg} (h : ws.mapM symArg = some as) :
    ws.map (wordOf self) = as.map fun a => (mixOf self a).text := by
  induction ws generalizing as with
  | nil => simp only [List.mapM_nil, Option.pure_def, Option.some.injEq] at h; subst h; rfl
  | cons w ws ih =>
    simp only [List.mapM_cons, Option.pure_def, Option.bind_eq_bind] at h
    cases hw : symArg w with
    | none => rw [hw] at h; cases h
    | some a =>
      rw [hw] at h
      cases hws : ws.mapM symArg with
      | none => rw [hws] at h; cases h
      | some as' =>
        rw [hws] at h
        simp only [Option.bind_some, Option.some.injEq] at h
        subst h
        rw [List.map_cons, List.map_cons, symArg_sound hw, ih hws]

/-- The arguments that are written. -/
def firedArgs (self : Ns) (l : List (Cond × List SymArg)) : List SymArg :=
  l.flatMap fun x => if x.1.eval self then x.2 else []

theorem symArgs_sound {self : Ns} {lw : List (Cond × List (List Sym))} {l : List (Cond × List SymArg)} (h : symArgs lw = some l) :
    firedWords self lw = (firedArgs self l).map fun a => (mixOf self a).text := by
  induction lw generalizing l with
  | nil => simp only [symArgs, Option.some.injEq] at h; subst h; rfl
  | cons x t ih =>
    obtain ⟨c, ws⟩ := x
    simp only [symArgs] at h
    split at h
    · rename_i as r h1 h2
      simp only [Option.some.injEq] at h
      subst h
      have e1 : firedWords self ((c, ws) :: t) = (if c.eval self then ws.map (wordOf self) else []) ++ firedWords self t := by simp [firedWords]
      have e2 : firedArgs self ((c, as) :: r) = (if c.eval self then as else []) ++ firedArgs self r := by simp [firedArgs]
      rw [e1, e2, List.map_append, ih h2]
      split
      · rw [mapM_sound h1]
      · rfl
    · cases h

theorem mem_firedArgs {self : Ns} {l : List (Cond × List SymArg)} {a : SymArg} :
    a ∈ firedArgs self l ↔ ∃ x ∈ l, x.1.eval self = true ∧ a ∈ x.2 := by
  simp only [firedArgs, List.mem_flatMap]
  constructor
  · rintro ⟨x, hx, h⟩
    split at h
    · rename_i hc; exact ⟨x, hx, hc, h⟩
    · cases h
  · rintro ⟨x, hx, hc, h⟩
    exact ⟨x, hx, by rw [if_pos hc]; exact h⟩

/-! ## Options -/

/-- The object's attributes are what a parse left, except those in `skip`. -/
def Parsed (p : OptParser) (init : Ns) (skip : List Str) (d : Ns) : Prop :=
  ∃ l args ns ex, p.parseKnown l args = .ok (ns, ex) ∧ ∀ k, k ∉ skip → d.get k = (setToObj ns init).get k

theorem Parsed.cases {p : OptParser} {init d : Ns} {skip : List Str} (h : Parsed p init skip d) {k : Str} (hk : k ∉ skip) (hn : p.nice k = true) :
    (d.get k ∈ p.cands init k ∨ FromOpt p k (d.get k)) ∧ (d.get k = some .none → init.get k = some .none) := by
  obtain ⟨l, args, ns, ex, h, hd⟩ := h
  rw [hd k hk]
  exact value_cases hn h

theorem dead_sound {p : OptParser} {init d : Ns} {skip : List Str} (h : Parsed p init skip d) {c : Cond} (hd : dead p init skip c = true) : c.eval d = false := by
  by_contra hc
  simp only [Bool.not_eq_false] at hc
  unfold dead at hd
  simp only [List.any_eq_true, Bool.and_eq_true, Bool.not_eq_true', List.contains_eq_mem, decide_eq_false_iff_not, List.all_eq_true] at hd
  obtain ⟨k, -, ⟨⟨hk, hn⟩, hi⟩, hall⟩ := hd
  obtain ⟨h1, h2⟩ := h.cases hk hn
  rcases h1 with h1 | ⟨b, hb, _⟩
  · have := hall _ h1
    simp only [Bool.or_eq_true, Bool.and_eq_true, decide_eq_true_eq, Bool.not_eq_true'] at this
    rcases this with ⟨e1, e2⟩ | this
    · exact e2 (h2 e1)
    · rw [admits_of_eval hc] at this
      cases this
  · rw [List.isEmpty_iff.1 hi] at hb
    cases hb

/-- The values of the options that drop a leading `/dev/` do not start with `/dev/`. -/
def DevOk (p : OptParser) (d : Ns) : Prop := ∀ b ∈ p.actions ++ p.strings.map (·.2), b.ty = .part → startsWith (d.getD b.dest).fmt c!"/dev/" = false

instance (p : OptParser) (d : Ns) : Decidable (DevOk p d) := by unfold DevOk; infer_instance

theorem checkValue_none {l : Option Int} {a : Action} (h : a.choices = none) (v : Val) : checkValue l a v = .ok () := by
  simp [checkValue, h]

theorem shows_sound {p : OptParser} {d : Ns} {a b : Action} {w : List Sym} (h : shows a b w = true) (hb : b.dest = a.dest) (ho : b.opts ≠ []) (hoa : a.opts ≠ [])
    (hdev : DevOk p d) (hmem : p.Has a) {l l' : Option Int} {xs : List Str} {v : Val} (hx : b.nargs = .one → b.opts ≠ [] → xs.length = 1)
    (hv : getValues l b xs = .ok v) (hd : d.get a.dest = some (actVal b v .none)) :
    d.get a.dest ≠ some .none ∧ ∃ v', getValues l' a [wordOf d w] = .ok v' ∧ ∀ old, some (actVal a v' old) = d.get a.dest := by
  unfold shows at h
  simp only [Bool.and_eq_true, decide_eq_true_eq] at h
  obtain ⟨⟨⟨⟨⟨⟨h1, h2⟩, h3⟩, h4⟩, h5⟩, h6⟩, h7⟩ := h
  obtain ⟨s, rfl, hg, hc⟩ := getValues_single ho h4 (hx h4 ho) hv
  have hact : actVal b v .none = v := by simp [actVal, h3]
  rw [hact] at hd
  have hgetD : d.getD a.dest = v := by simp [Ns.getD, hd]
  have hne : v ≠ .none := by
    refine getValue_ne_none ?_ hg
    rw [← h5]
    split at h7 <;> first | (rename_i e; rw [e]; rfl) | cases h7
  refine ⟨by rw [hd]; simpa using hne, v, ?_, fun old => by simp [actVal, h1, hd]⟩
  refine getValues_of_one hoa h2 ?_ (checkValue_none h6 v)
  have hword : ∀ f, w = [.fr f] → wordOf d w = f.meant d := by rintro f rfl; simp [wordOf, Sym.meant]
  simp only [getValue, Action.type] at hg ⊢
  cases hty : a.ty with
  | str =>
    rw [← h5, hty] at hg
    simp only [Ty.run, Except.ok.injEq] at hg
    subst hg
    rw [hty] at h7
    simp only [Bool.or_eq_true, decide_eq_true_eq, Bool.and_eq_true, true_and] at h7
    rcases h7 with h7 | h7
    · rw [hword _ h7]; simp [Frag.meant, Frag.render, hgetD, Ty.run, Val.fmt]
    · rw [hword _ h7]; simp [Frag.meant, hgetD, Ty.run, Val.fmt]
  | int =>
    rw [← h5, hty] at hg
    simp only [Ty.run, tyInt] at hg
    cases hp : pyInt s with
    | none => rw [hp] at hg; cases hg
    | some n =>
      rw [hp] at hg
      simp only [Except.ok.injEq] at hg
      subst hg
      rw [hty] at h7
      simp only [Bool.or_eq_true, decide_eq_true_eq, Bool.and_eq_true, reduceCtorEq, false_and, or_false] at h7
      rw [hword _ h7]
      simp only [Frag.meant, Frag.render, hgetD, Ty.run, Val.fmt, tyInt_intStr]
  | mount =>
    rw [← h5, hty] at hg
    simp only [Ty.run, tyMount, Except.ok.injEq] at hg
    subst hg
    rw [hty] at h7
    simp only [Bool.or_eq_true, decide_eq_true_eq, Bool.and_eq_true, reduceCtorEq, false_and, or_false] at h7
    rw [hword _ h7]
    simp only [Frag.meant, Frag.render, hgetD, Ty.run, Val.fmt, tyMount, C07_idempotent]
  | part =>
    rw [← h5, hty] at hg
    simp only [Ty.run, Except.ok.injEq] at hg
    rw [hty] at h7
    simp only [Bool.or_eq_true, decide_eq_true_eq, Bool.and_eq_true, reduceCtorEq, false_and, or_false] at h7
    rw [hword _ h7]
    have hm : a ∈ p.actions ++ p.strings.map (·.2) := by
      rcases hmem with hb | ⟨n, hb⟩
      · exact List.mem_append_left _ hb
      · exact List.mem_append_right _ (List.mem_map.2 ⟨_, hb, rfl⟩)
    have hst := hdev a hm hty
    rw [hgetD] at hst
    simp only [Frag.meant, Frag.render, hgetD, Ty.run]
    rw [← hg] at hst ⊢
    simp only [Val.fmt] at hst ⊢
    generalize stripDev s = t at hst ⊢
    simp [stripDev, hst]
  | comma =>
    rw [← h5, hty] at hg
    simp only [Ty.run, tyComma, Except.ok.injEq] at hg
    subst hg
    rw [hty] at h7
    simp only [Bool.or_eq_true, decide_eq_true_eq] at h7
    have : wordOf d w = joinWith c!"," (commaSplit s) := by
      rcases h7 with h7 | h7
      · rw [hword _ h7]; simp [Frag.meant, Frag.render, hgetD, Val.items]
      · rw [hword _ h7]; simp [Frag.meant, hgetD, Val.items]
    rw [this]
    simp only [Ty.run, tyComma]
    rw [C05_roundtrip _ (C05_elements_clean s)]
  | _ => rw [hty] at h7; cases h7

theorem restores_sound {d : Ns} {a : Action} {val : Option (List Sym)} (h : restores a val (d.get a.dest) = true) (l : Option Int) :
    d.get a.dest ≠ some .none ∧ ∃ v', getValues l a (val.map (wordOf d)).toList = .ok v' ∧ ∀ old, some (actVal a v' old) = d.get a.dest := by
  unfold restores at h
  simp only [Bool.and_eq_true] at h
  obtain ⟨h1, h2⟩ := h
  have hw : (val.map (wordOf d)).toList = val.toList.map (wordOf (envOf a.dest (d.get a.dest))) := by
    cases val with
    | none => rfl
    | some w => simp only [Option.map_some, Option.toList_some, List.map_cons, List.map_nil]; rw [wordOf_env (w := w) h1]
  rw [hw]
  split at h2
  · rename_i v' hv
    simp only [Bool.and_eq_true, Bool.or_eq_true, decide_eq_true_eq] at h2
    refine ⟨h2.2, v', getValues_ok_line hv, fun old => ?_⟩
    rw [actVal_old h2.1.1 v' old .none]
    exact h2.1.2
  · cases h2

theorem Has_of_lookup {p : OptParser} {n : Str} {a : Action} (h : p.lookup n = some a) : p.Has a :=
  .inr ⟨n, lookup_mem_pair h⟩

/-- An option that is written is known, and it stores the value of its attribute. -/
theorem tok_sound {p : OptParser} {init d : Ns} {skip : List Str} {c : Cond} {name : Str} {val : Option (List Sym)} (hP : Parsed p init skip d)
    (hdev : DevOk p d) (h : tokCheck p init skip c name val = true) (hc : c.eval d = true) :
    ∃ a, p.lookup name = some a ∧ (MixArg.tok ⟨name, val.map (wordOf d)⟩).Ok p ∧
      (a.dest ∉ skip → ∀ l, d.get a.dest ≠ some .none ∧ ∃ v, getValues l a (val.map (wordOf d)).toList = .ok v ∧ ∀ old, some (actVal a v old) = d.get a.dest) := by
  unfold tokCheck at h
  rw [Bool.or_eq_true] at h
  rcases h with h | h
  · rw [dead_sound hP h] at hc; cases hc
  split at h
  · cases h
  rename_i a ha
  rw [Bool.and_eq_true] at h
  obtain ⟨h1, h2⟩ := h
  refine ⟨a, ha, ⟨a, lookup_mem_pair ha, ?_⟩, ?_⟩
  · cases val with
    | none => simpa using h1
    | some w => simpa using h1
  intro hk l
  simp only [Bool.or_eq_true, List.contains_eq_mem, decide_eq_true_eq, Bool.and_eq_true, List.all_eq_true, Bool.not_eq_true'] at h2
  rcases h2 with h2 | ⟨⟨hn, h2⟩, h3⟩
  · exact absurd h2 hk
  obtain ⟨hv, hnone⟩ := hP.cases hk hn
  obtain ⟨ho, -, -⟩ := nice_iff hn (Has_of_lookup ha) rfl
  rcases hv with hv | ⟨b, hb, hbo, l0, xs, v, hx, hg, he⟩
  · rcases h2 _ hv with (⟨e1, e2⟩ | e) | e
    · exact absurd (hnone e1) e2
    · rw [admits_of_eval hc] at e; cases e
    · exact restores_sound e l
  · have h3 := h3 b hb
    split at h3
    · cases h3
    rename_i w
    have hbd : b.dest = a.dest := (mem_acts.1 (List.mem_filter.1 hb).1).2
    exact shows_sound h3 hbd hbo ho hdev (Has_of_lookup ha) hx hg he

/-! ## The result of the second parse -/

theorem runKey_const {p : OptParser} {lineno : Option Int} {k : Str} {x : Option Val} : ∀ {ts : List Tok} {o : Option Val},
    (∀ t ∈ ts, ∀ a, p.lookup t.name = some a → a.dest = k → ∃ v, getValues lineno a t.val.toList = .ok v ∧ ∀ old, some (actVal a v old) = x) →
    (runKey p lineno k ts o = x ∨ runKey p lineno k ts o = o) ∧
      ((∃ t ∈ ts, ∃ a, p.lookup t.name = some a ∧ a.dest = k) ∨ o = x → runKey p lineno k ts o = x)
  | [], o, _ => ⟨.inr rfl, by
      rintro (⟨t, ht, -⟩ | h)
      · cases ht
      · exact h⟩
  | t :: ts, o, h => by
    have hts : ∀ t ∈ ts, ∀ a, p.lookup t.name = some a → a.dest = k → ∃ v, getValues lineno a t.val.toList = .ok v ∧ ∀ old, some (actVal a v old) = x :=
      fun t ht => h t (List.mem_cons_of_mem _ ht)
    have hh := h t List.mem_cons_self
    simp only [runKey]
    cases hl : p.lookup t.name with
    | none =>
      simp only
      obtain ⟨h1, h2⟩ := runKey_const (o := o) hts
      refine ⟨h1, fun hx => h2 ?_⟩
      rcases hx with ⟨t', ht', a, ha, hk⟩ | hx
      · rcases List.mem_cons.1 ht' with rfl | ht'
        · rw [hl] at ha; cases ha
        · exact .inl ⟨t', ht', a, ha, hk⟩
      · exact .inr hx
    | some a =>
      simp only
      by_cases hk : a.dest = k
      · obtain ⟨v, hv, hx⟩ := hh a hl hk
        rw [hv]
        simp only [if_pos hk]
        rw [hx]
        obtain ⟨h1, h2⟩ := runKey_const (o := x) hts
        exact ⟨.inl (h2 (.inr rfl)), fun _ => h2 (.inr rfl)⟩
      · obtain ⟨h1, h2⟩ := runKey_const (o := o) hts
        have hx' : ∀ (hx : (∃ t' ∈ t :: ts, ∃ a, p.lookup t'.name = some a ∧ a.dest = k) ∨ o = x), runKey p lineno k ts o = x := by
          intro hx
          apply h2
          rcases hx with ⟨t', ht', a', ha, hk'⟩ | hx
          · rcases List.mem_cons.1 ht' with rfl | ht'
            · rw [hl] at ha; injection ha with ha; subst ha; exact absurd hk' hk
            · exact .inl ⟨t', ht', a', ha, hk'⟩
          · exact .inr hx
        cases hg : getValues lineno a t.val.toList with
        | error e => exact ⟨h1, hx'⟩
        | ok v => simp only [if_neg hk]; exact ⟨h1, hx'⟩

theorem defaults_nodup (p : OptParser) : p.defaults.keys.Nodup := by
  unfold OptParser.defaults
  have : ∀ (l : List Action) (n : Ns), n.keys.Nodup →
      (l.foldl (fun ns a => if (ns.get a.dest).isNone then ns.set a.dest a.default else ns) n).keys.Nodup := by
    intro l
    induction l with
    | nil => intro n hn; exact hn
    | cons a l ih =>
      intro n hn
      rw [List.foldl_cons]
      apply ih
      split
      · exact Ns.nodup_set hn _ _
      · exact hn
  exact this _ _ (by simp)

/-! ## What is written -/

theorem guards_sound {d : Ns} {l : List (Cond × List SymArg)} (h : firedArgs d l ≠ []) {y : Cond} (hy : y ∈ guards l) : y.eval d = true := by
  obtain ⟨a, ha⟩ := List.exists_mem_of_ne_nil _ h
  obtain ⟨x, hx, hc, hax⟩ := mem_firedArgs.1 ha
  unfold guards at hy
  split at hy
  · cases hx
  rename_i c as t
  have := List.all_eq_true.1 (List.mem_filter.1 hy).2 x hx
  simp only [Bool.or_eq_true, List.isEmpty_iff, List.contains_eq_mem, decide_eq_true_eq] at this
  rcases this with e | e
  · rw [e] at hax; cases hax
  · exact (eval_conj d _).1 hc _ e

theorem covers_sound {d : Ns} {rs : List (List Cond)} (h : covers rs = true) : ∃ r ∈ rs, ∀ y ∈ r, y.eval d = true := by
  unfold covers at h
  rw [Bool.or_eq_true] at h
  rcases h with h | h
  · obtain ⟨r, hr, e⟩ := List.any_eq_true.1 h
    rw [List.isEmpty_iff] at e
    exact ⟨r, hr, by rw [e]; simp⟩
  · obtain ⟨r, hr, e⟩ := List.any_eq_true.1 h
    split at e
    · rename_i y
      simp only [List.contains_eq_mem, decide_eq_true_eq] at e
      by_cases hy : y.eval d = true
      · exact ⟨[y], hr, by simpa using hy⟩
      · exact ⟨[.not y], e, by simp only [List.mem_singleton]; rintro z rfl; simpa [Cond.eval] using hy⟩
    · cases e

theorem residues_sound {p : OptParser} {d : Ns} {l : List (Cond × List SymArg)} {k : Str} {w : Cond} {f : Cond → Bool}
    (h : covers (residues p l k w f) = true) (hne : firedArgs d l ≠ []) (hw : w.eval d = true) (hf : ∀ y, f y = true → y.eval d = true) :
    ∃ a ∈ firedArgs d l, writes p k a = true := by
  obtain ⟨r, hr, hy⟩ := covers_sound (d := d) h
  unfold residues at hr
  obtain ⟨x, hx, rfl⟩ := List.mem_map.1 hr
  obtain ⟨hx, hwr⟩ := List.mem_filter.1 hx
  obtain ⟨a, ha, hwr⟩ := List.any_eq_true.1 hwr
  refine ⟨a, mem_firedArgs.2 ⟨x, hx, ?_, ha⟩, hwr⟩
  rw [eval_conj]
  intro y hyc
  by_cases h1 : y ∈ guards l
  · exact guards_sound hne h1
  by_cases h2 : y ∈ w.conj
  · exact (eval_conj d w).1 hw y h2
  by_cases h3 : f y = true
  · exact hf y h3
  · refine hy y (List.mem_filter.2 ⟨hyc, ?_⟩)
    simp [h1, h2, h3]

theorem pyEq_truthy {a b : Val} (h : a.pyEq b = true) : a.truthy = b.truthy := by
  unfold Val.pyEq at h
  split at h
  · rename_i x n
    simp only [decide_eq_true_eq] at h
    subst h
    cases x <;> simp [Val.truthy]
  · rename_i n x
    simp only [decide_eq_true_eq] at h
    subst h
    cases x <;> simp [Val.truthy]
  · simp only [decide_eq_true_eq] at h
    rw [h]

theorem sharp_sound {a b : Val} (h : a.pyEq b = true) (hs : b.sharp = true) : a = b := by
  unfold Val.pyEq at h
  split at h
  · rename_i x n
    simp only [decide_eq_true_eq] at h
    subst h
    cases x <;> simp [Val.sharp] at hs
  · simp [Val.sharp] at hs
  · simpa using h

theorem mild_sound {d : Ns} {k : Str} {base : Option Val} {y : Cond} (h : y.mild k base = true) (ht : (d.getD k).truthy = true) (hb : d.get k ≠ base) :
    y.eval d = true := by
  have hsome : d.get k = some (d.getD k) := by
    cases e : d.get k with
    | none => simp [Ns.getD, e, Val.truthy] at ht
    | some v => simp [Ns.getD, e]
  unfold Cond.mild at h
  split at h
  · rfl
  · simp only [decide_eq_true_eq] at h; subst h; exact ht
  · simp only [decide_eq_true_eq] at h; subst h; simp [Cond.eval, hsome]
  · rename_i k' v
    simp only [Bool.and_eq_true, decide_eq_true_eq, Bool.or_eq_true, Bool.not_eq_true'] at h
    obtain ⟨rfl, h⟩ := h
    simp only [Cond.eval, Bool.not_eq_true']
    rw [Bool.eq_false_iff]
    intro e
    rcases h with h | ⟨h, hs⟩
    · rw [pyEq_truthy e, h] at ht; cases ht
    · rw [sharp_sound e hs] at hsome
      exact hb (hsome.trans h)
  · cases h

theorem mildAll_sound {d : Ns} {k : Str} {base : Option Val} {y : Cond} (h : y.mildAll k base = true) {v : Val} (hv : d.get k = some v) (hb : d.get k ≠ base) :
    y.eval d = true := by
  unfold Cond.mildAll at h
  split at h
  · rfl
  · rename_i k' v'
    simp only [Bool.and_eq_true, decide_eq_true_eq] at h
    obtain ⟨⟨rfl, h⟩, hs⟩ := h
    simp only [Cond.eval, Bool.not_eq_true']
    rw [Bool.eq_false_iff]
    intro e
    have he : d.getD k' = v := by simp [Ns.getD, hv]
    rw [he] at e
    rw [sharp_sound e hs] at hv
    exact hb (hv.trans h)
  · cases h

theorem kept_sound {p : OptParser} {init d : Ns} {skip : List Str} {l : List (Cond × List SymArg)} {k : Str} {w : Cond} {full : Bool} (hP : Parsed p init skip d)
    (hk : k ∉ skip) (hn : p.nice k = true) (h : kept p init l k w full = true) (hne : firedArgs d l ≠ []) (hw : w.eval d = true)
    (ht : full = true ∨ (d.getD k).truthy = true) : d.get k = (setToObj p.defaults init).get k ∨ ∃ a ∈ firedArgs d l, writes p k a = true := by
  unfold kept at h
  simp only [Bool.or_eq_true, decide_eq_true_eq, Bool.and_eq_true, List.all_eq_true, Bool.not_eq_true'] at h
  rcases h with h | ⟨h1, h2⟩
  · subst h; simp [Cond.eval] at hw
  by_cases hb : d.get k = (setToObj p.defaults init).get k
  · exact .inl hb
  right
  obtain ⟨hv, -⟩ := hP.cases hk hn
  rcases hv with hv | ⟨b, hbm, -, -, -, v, -, -, hv⟩
  · rcases h1 _ hv with (h | h) | h
    · exact absurd h hb
    · rcases ht with ht | ht
      · rw [ht] at h; cases h.1
      · rw [Ns.getD] at ht; rw [ht] at h; cases h.2
    · refine residues_sound h hne hw fun y hy => ?_
      simp only [Bool.and_eq_true, List.all_eq_true, beq_iff_eq] at hy
      rw [← hy.2]
      exact eval_congr fun k' hk' => by rw [hy.1 k' hk', get_envOf]
  · rcases h2 with h2 | h2
    · rw [List.isEmpty_iff.1 h2] at hbm; cases hbm
    · refine residues_sound h2 hne hw fun y hy => ?_
      cases full with
      | true => exact mildAll_sound hy hv hb
      | false => exact mild_sound hy (by simpa using ht) hb

theorem litWord_sound {self : Ns} {w : List Sym} {n : Str} (h : litWord w = some n) : wordOf self w = n := by
  induction w generalizing n with
  | nil => simp [litWord] at h; subst h; rfl
  | cons s t ih =>
    cases s with
    | fr f => simp [litWord] at h
    | ch c =>
      simp only [litWord] at h
      cases ht : litWord t with
      | none => rw [ht] at h; cases h
      | some n' =>
        rw [ht] at h
        simp only [Option.map_some, Option.some.injEq] at h
        subst h
        have := ih ht
        simp only [wordOf, List.map_cons, List.flatten_cons, Sym.meant, List.cons_append, List.nil_append] at this ⊢
        rw [this]

theorem follows_sound {g : Cond} {d : Ns} (hg : g.eval d = true) : ∀ {c : Cond}, g.follows c = true → c.eval d = true
  | .tt, _ => rfl
  | .and a b, h => by
    simp only [Cond.follows, Bool.and_eq_true] at h
    simp [Cond.eval, follows_sound hg h.1, follows_sound hg h.2]
  | .or a b, h => by
    simp only [Cond.follows, Bool.or_eq_true, List.contains_eq_mem, decide_eq_true_eq] at h
    rcases h with (h | h) | h
    · exact (eval_conj d g).1 hg _ h
    · simp [Cond.eval, follows_sound hg h]
    · simp [Cond.eval, follows_sound hg h]
  | .tru _, h => (eval_conj d g).1 hg _ (by simpa [Cond.follows] using h)
  | .eq _ _, h => (eval_conj d g).1 hg _ (by simpa [Cond.follows] using h)
  | .gt _ _, h => (eval_conj d g).1 hg _ (by simpa [Cond.follows] using h)
  | .has _, h => (eval_conj d g).1 hg _ (by simpa [Cond.follows] using h)
  | .contains _ _, h => (eval_conj d g).1 hg _ (by simpa [Cond.follows] using h)
  | .shown _, h => (eval_conj d g).1 hg _ (by simpa [Cond.follows] using h)
  | .not _, h => (eval_conj d g).1 hg _ (by simpa [Cond.follows] using h)

theorem head_sound {d : Ns} {names : List Str} : ∀ {l : List (Cond × List SymArg)} {seen : List Cond}, headOk names seen l = true →
    (∀ c ∈ seen, c.eval d = false) → firedArgs d l = [] ∨ ∃ n ∈ names, ∃ w rest, firedArgs d l = .pos w :: rest ∧ wordOf d w = n
  | [], _, _, _ => .inl rfl
  | (c, []) :: t, seen, h, hs => by
    rw [headOk] at h
    have := head_sound h hs
    simpa [firedArgs] using this
  | (c, a :: as) :: t, seen, h, hs => by
    rw [headOk, Bool.and_eq_true] at h
    obtain ⟨h1, h2⟩ := h
    have e : firedArgs d ((c, a :: as) :: t) = (if c.eval d then a :: as else []) ++ firedArgs d t := by simp [firedArgs]
    by_cases hc : c.eval d = true
    · right
      rw [e, if_pos hc]
      rw [Bool.or_eq_true] at h1
      rcases h1 with h1 | h1
      · unfold startsName at h1
        split at h1
        · rename_i w
          split at h1
          · rename_i n hn
            simp only [List.contains_eq_mem, decide_eq_true_eq] at h1
            exact ⟨n, h1, w, _, rfl, litWord_sound hn⟩
          · cases h1
        · cases h1
      · exfalso
        obtain ⟨y, hy, hall⟩ := List.any_eq_true.1 h1
        have : y.eval d = true := follows_sound hc hall
        rw [hs y hy] at this
        cases this
    · rw [e, if_neg hc]
      have := head_sound (seen := c :: seen) h2 (by
        intro y hy
        rcases List.mem_cons.1 hy with rfl | hy
        · simpa using hc
        · exact hs y hy)
      simpa using this

/-- No word that is not an option starts with a dash. -/
def DashFree (o : Out) (d : Ns) : Prop :=
  match outArgs o with
  | none => True
  | some l => ∀ a ∈ firedArgs d l, match a with
    | .pos w => startsWith (wordOf d w) c!"-" = false
    | .opt _ _ => True

instance (o : Out) (d : Ns) : Decidable (DashFree o d) := by
  unfold DashFree
  split
  · infer_instance
  · refine @List.decidableBAll _ _ (fun a => ?_) _
    split <;> infer_instance

/-- What is written is read back. -/
theorem readBack {p : OptParser} {init d : Ns} {names skip full : List Str} {lossy : List (Str × Cond)} {o : Out} (hc : rtCheck p init names skip full lossy o = true)
    (wf : p.WF) (hP : Parsed p init skip d) (hs : o.Safe d) (hdash : DashFree o d) (hdev : DevOk p d) :
    ∃ words, shlexSplit (o.render d) true = .ok words ∧ (words = [] ∧ (∀ l, outArgs o = some l → firedArgs d l = []) ∨ ∃ name ∈ names, ∃ args, words = name :: args ∧
      ∀ l1 ns1 ex1 (d1 : Ns), p.parseKnown l1 args = .ok (ns1, ex1) → (∀ k, k ∉ skip → d1.get k = (setToObj ns1 init).get k) →
        ∀ k ∈ p.optDests, k ∉ skip → (d1.get k = d.get k ∨ d1.get k = (setToObj p.defaults init).get k) ∧
          ((whenKept lossy k).eval d = true → k ∈ full ∨ (d.getD k).truthy = true → d1.get k = d.get k)) := by
  unfold rtCheck at hc
  unfold DashFree at hdash
  cases hl : outArgs o with
  | none => rw [hl] at hc; cases hc
  | some l =>
  rw [hl] at hc hdash
  simp only [Bool.and_eq_true, List.all_eq_true, Bool.or_eq_true, List.contains_eq_mem, decide_eq_true_eq] at hc hdash
  obtain ⟨⟨htok, hkept⟩, hhead⟩ := hc
  unfold outArgs at hl
  cases hw : outWords [] o with
  | none => rw [hw] at hl; cases hl
  | some lw =>
  rw [hw] at hl
  simp only at hl
  refine ⟨_, template_words hw hs, ?_⟩
  rw [symArgs_sound hl]
  rcases head_sound hhead (d := d) (by simp) with h0 | ⟨n, hn, w, rest, h0, hwn⟩
  · left; rw [h0]; exact ⟨rfl, fun l' hl' => by cases hl'; exact h0⟩
  right
  refine ⟨n, hn, rest.map fun a => (mixOf d a).text, by rw [h0, List.map_cons]; simp [mixOf, MixArg.text, hwn], ?_⟩
  intro l1 ns1 ex1 d1 h1 hd1 k hk hks
  have htok' : ∀ a ∈ rest, ∀ name val, a = .opt name val → ∃ a, p.lookup name = some a ∧ (MixArg.tok ⟨name, val.map (wordOf d)⟩).Ok p ∧
      (a.dest ∉ skip → ∀ l, d.get a.dest ≠ some .none ∧ ∃ v, getValues l a (val.map (wordOf d)).toList = .ok v ∧ ∀ old, some (actVal a v old) = d.get a.dest) := by
    rintro a ha name val rfl
    obtain ⟨x, hx, hcx, hax⟩ := mem_firedArgs.1 (show SymArg.opt name val ∈ firedArgs d l by rw [h0]; exact List.mem_cons_of_mem _ ha)
    exact tok_sound hP hdev (htok x hx _ hax) hcx
  have hnice : p.nice k = true := by
    rcases hkept k hk with h | h
    · exact absurd h hks
    · exact h.1
  have hmix : rest.map (fun a => (mixOf d a).text) = (rest.map (mixOf d)).map MixArg.text := by simp
  rw [hmix] at h1
  obtain ⟨hrun, -⟩ := parseKnown_mixed wf (d := k) (by
      intro x hx
      obtain ⟨a, ha, rfl⟩ := List.mem_map.1 hx
      cases a with
      | pos w' => exact hdash (.pos w') (by rw [h0]; exact List.mem_cons_of_mem _ ha)
      | opt n' v' => obtain ⟨a, -, hok, -⟩ := htok' _ ha _ _ rfl; exact hok)
    (fun b hb e => by obtain ⟨h1, -, h3⟩ := nice_iff hnice (.inl hb) e; exact ⟨h1, h3⟩) h1
  have hnd := C16_known_keys _ _ _ _ _ h1
  have hfin : ns1.get k = d.get k → d.get k ≠ some .none → d.get k ≠ none → d1.get k = d.get k := by
    intro e1 e2 e3
    rw [hd1 k hks, C16_set_to_obj _ _ hnd, e1]
    split
    · rename_i e; exact absurd e e2
    · rename_i e; exact e.symm
    · rename_i e; exact absurd e e3
  have hbase : ns1.get k = p.defaults.get k → d1.get k = (setToObj p.defaults init).get k := by
    intro e1
    rw [hd1 k hks, C16_set_to_obj _ _ hnd, C16_set_to_obj _ _ (defaults_nodup p), e1]
  have hall : ∀ t ∈ mixToks (rest.map (mixOf d)), ∀ a, p.lookup t.name = some a → a.dest = k →
      d.get k ≠ some .none ∧ ∃ v, getValues l1 a t.val.toList = .ok v ∧ ∀ old, some (actVal a v old) = d.get k := by
    intro t ht a ha hak
    obtain ⟨sa, hsa, e⟩ := List.mem_map.1 (mem_mixToks.1 ht)
    cases sa with
    | pos w' => simp [mixOf] at e
    | opt n' v' =>
      simp only [mixOf, MixArg.tok.injEq] at e
      subst e
      obtain ⟨a', ha', -, h⟩ := htok' _ hsa _ _ rfl
      simp only at ha
      rw [ha'] at ha
      injection ha with ha
      subst ha
      rw [← hak] at hks ⊢
      exact h hks l1
  obtain ⟨hr1, hr2⟩ := runKey_const (p := p) (lineno := l1) (k := k) (x := d.get k) (ts := mixToks (rest.map (mixOf d))) (o := p.defaults.get k)
    (fun t ht a ha hak => (hall t ht a ha hak).2)
  by_cases hex : ∃ t ∈ mixToks (rest.map (mixOf d)), ∃ a, p.lookup t.name = some a ∧ a.dest = k
  · have e : d1.get k = d.get k := by
      obtain ⟨t, ht, a, ha, hak⟩ := hex
      obtain ⟨g1, v, -, g2⟩ := hall t ht a ha hak
      refine hfin (hrun.trans (hr2 (.inl ⟨t, ht, a, ha, hak⟩))) g1 ?_
      rw [← g2 .none]
      simp
    exact ⟨.inl e, fun _ _ => e⟩
  · have hz : ∀ {ts : List Tok} {o : Option Val}, (¬ ∃ t ∈ ts, ∃ a, p.lookup t.name = some a ∧ a.dest = k) → runKey p l1 k ts o = o := by
      intro ts o hno
      exact ((runKey_const (p := p) (lineno := l1) (k := k) (x := o) (ts := ts) (o := o) (fun t ht a ha hak => absurd ⟨t, ht, a, ha, hak⟩ hno)).2 (.inr rfl))
    rw [hz hex] at hrun
    refine ⟨.inr (hbase hrun), fun hwk htr => ?_⟩
    rcases hkept k hk with h | ⟨-, hkp⟩
    · exact absurd h hks
    rcases kept_sound hP hks hnice hkp (by rw [h0]; simp) hwk (by simpa using htr) with h | ⟨a, ha, hwr⟩
    · rw [h]; exact hbase hrun
    · exfalso
      rw [h0] at ha
      rcases List.mem_cons.1 ha with rfl | ha
      · simp [writes] at hwr
      · cases a with
        | pos w' => simp [writes] at hwr
        | opt n' v' =>
          simp only [writes] at hwr
          split at hwr
          · rename_i a' ha'
            simp only [decide_eq_true_eq] at hwr
            exact hex ⟨⟨n', v'.map (wordOf d)⟩, mem_mixToks.2 (List.mem_map.2 ⟨_, ha, rfl⟩), a', ha', hwr⟩
          · cases hwr

end Ks
