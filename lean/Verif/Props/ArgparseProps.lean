import Verif.ArgparseCanon
import Mathlib.Data.List.Nodup
/-!
# Properties of option parsing (C10 – C16)

`p.Built` says that the parser was made with `add_argument`/`remove_argument` calls on a fresh
`KSOptionParser` with option names as `/repo` uses them.  A `Tok` is one option as a user writes
it: `--name` or `--name=value`.
-/
namespace Ks

/-! ## C10 -/

/-- Every converter passed as `type=` raises only `ValueError`, `TypeError`,
`ArgumentTypeError`, or a `KickstartParseError` with the line number. -/
def OptParser.TypesOk (p : OptParser) (lineno : Option Int) : Prop :=
  (∀ a ∈ p.actions, a.TypeOk lineno) ∧ ∀ kv ∈ p.strings, kv.2.TypeOk lineno

/-- C10: the only exception `parse_known_args` raises is `KickstartParseError` with the given
line number. -/
theorem C10_parse_known_error (p : OptParser) (lineno : Option Int) (args : List Str) (h : p.TypesOk lineno)
    (e : Exc) (he : p.parseKnown lineno args = .error e) : ∃ tag, e = .parse tag lineno := by
  unfold OptParser.parseKnown at he
  split at he
  · rename_i e1 h1
    injection he with he; subst he
    exact classify_err h1
  · rename_i cs hcs
    split at he
    · rename_i e1 h1
      injection he with he; subst he
      refine parseLoop_err ?_ ?_ h1
      · intro a ha
        exact h.1 a (List.mem_filter.1 ha).1
      · intro s t a hm ha
        obtain ⟨k, hk, _⟩ := parseOptional_action (classify_mem hcs hm).2 ha
        exact h.2 _ hk
    · split at he
      · rename_i e1 h1
        injection he with he; subst he
        exact finish_err h.1 h1
      · split at he
        · injection he with he; subst he; exact isArgErr_argErr _ _
        · cases he

/-- C10: the same for `parse_args`. -/
theorem C10_parse_args_error (p : OptParser) (lineno : Option Int) (args : List Str) (h : p.TypesOk lineno)
    (e : Exc) (he : p.parseArgs lineno args = .error e) : ∃ tag, e = .parse tag lineno := by
  unfold OptParser.parseArgs at he
  split at he
  · rename_i e1 h1
    injection he with he; subst he
    exact C10_parse_known_error p lineno args h _ h1
  · split at he
    · injection he with he; subst he; exact isArgErr_argErr _ _
    · cases he

/-- The converters of `/repo/pykickstart/options.py` and `int` behave as C10 requires. -/
theorem C10_converters (lineno : Option Int) (a : Action)
    (h : a.type = (fun s => .ok (.str s)) ∨ a.type = tyInt ∨ a.type = tyComma ∨ a.type = tyBool ∨ a.type = tyMount) :
    a.TypeOk lineno := by
  intro s e he
  rcases h with h | h | h | h | h <;> rw [h] at he
  · cases he
  · unfold tyInt at he; split at he
    · cases he
    · injection he with he; exact Or.inl he.symm
  · cases he
  · unfold tyBool at he; split at he
    · cases he
    · injection he with he; exact Or.inl he.symm
  · cases he

theorem mkAction_type (i : Nat) (a : Arg) : (mkAction i a).type = a.type := by
  unfold mkAction
  split
  · split <;> rfl
  · rfl

theorem TypesOk_resolve1 {p : OptParser} {lineno : Option Int} (h : p.TypesOk lineno) (s : Str) :
    (p.resolve1 s).TypesOk lineno := by
  unfold OptParser.resolve1
  split
  · exact h
  · rename_i a ha
    have key : ∀ (b : Action) (o : List Str), b.TypeOk lineno →
        Action.TypeOk lineno (if b.id = a.id then { b with opts := o } else b) := by
      intro b o hb; split <;> exact hb
    have h1 : OptParser.TypesOk { (p.setOpts a.id (a.opts.erase s)) with
        strings := (p.setOpts a.id (a.opts.erase s)).strings.filter (fun kv => kv.1 != s) } lineno := by
      constructor
      · intro c hc
        obtain ⟨b, hb, rfl⟩ := List.mem_map.1 hc
        exact key _ _ (h.1 b hb)
      · intro kv hkv
        obtain ⟨⟨k, b⟩, hb, rfl⟩ := List.mem_map.1 (List.mem_filter.1 hkv).1
        exact key _ _ (h.2 _ hb)
    simp only
    split
    · exact ⟨fun c hc => h1.1 c (List.mem_filter.1 hc).1, h1.2⟩
    · exact h1

theorem TypesOk_add {p : OptParser} {lineno : Option Int} (h : p.TypesOk lineno) {a : Arg}
    (ha : ∀ s e, a.type s = .error e → e = .value ∨ e = .type ∨ ∃ tag, e = .parse tag lineno) :
    (p.add a).TypesOk lineno := by
  have hact : Action.TypeOk lineno (mkAction p.nextId a) := by
    intro s e he
    rw [mkAction_type] at he
    exact ha s e he
  have hfold : ∀ (l : List Str) (q : OptParser), q.TypesOk lineno → (l.foldl OptParser.resolve1 q).TypesOk lineno := by
    intro l
    induction l with
    | nil => intro q hq; exact hq
    | cons s l ih => intro q hq; exact ih _ (TypesOk_resolve1 hq s)
  have h1 := hfold (mkAction p.nextId a).opts p h
  constructor
  · intro b hb
    rcases List.mem_append.1 hb with hb | hb
    · exact h1.1 b hb
    · rw [List.mem_singleton.1 hb]; exact hact
  · intro kv hkv
    rcases List.mem_append.1 hkv with hkv | hkv
    · exact h1.2 kv hkv
    · obtain ⟨o, _, rfl⟩ := List.mem_map.1 hkv; exact hact

theorem TypesOk_remove {p : OptParser} {lineno : Option Int} (h : p.TypesOk lineno) (s : Str) :
    (p.remove s).TypesOk lineno := by
  unfold OptParser.remove
  split
  · exact h
  · exact ⟨fun b hb => h.1 b (List.mem_filter.1 hb).1, fun kv hkv => h.2 kv (List.mem_filter.1 hkv).1⟩

/-- C10: any table of arguments whose converters are those of `options.py`, `int` or `str`. -/
theorem C10_table (lineno : Option Int) (args : List Arg)
    (h : ∀ a ∈ args, a.type = (fun s => .ok (.str s)) ∨ a.type = tyInt ∨ a.type = tyComma ∨ a.type = tyBool ∨ a.type = tyMount) :
    (OptParser.empty.addAll args).TypesOk lineno := by
  have : ∀ (args : List Arg) (p : OptParser), p.TypesOk lineno →
      (∀ a ∈ args, a.type = (fun s => .ok (.str s)) ∨ a.type = tyInt ∨ a.type = tyComma ∨ a.type = tyBool ∨ a.type = tyMount) →
      (p.addAll args).TypesOk lineno := by
    intro args
    induction args with
    | nil => intro p hp _; exact hp
    | cons a args ih =>
      intro p hp h
      refine ih _ (TypesOk_add hp ?_) (fun b hb => h b (by simp [hb]))
      intro s e he
      have hc := C10_converters lineno { mkAction 0 a with ty := a.ty } (h a (by simp))
      exact hc s e he
  exact this args _ ⟨by simp [OptParser.empty], by simp [OptParser.empty]⟩ h

/-- A parser used in the examples below: a positional, a value option, an integer option with
a longer sibling, a list option, an appending option, and a required one. -/
def demoParser : OptParser :=
  OptParser.empty.addAll
    [ { names := [c!"mnt"], nargs := .star },
      { names := [c!"--size"], ty := .int },
      { names := [c!"--sizemax"], ty := .int },
      { names := [c!"--services", c!"--svc"], kind := .extend, ty := .comma },
      { names := [c!"--note"], kind := .append },
      { names := [c!"--grow"], kind := .storeConst, const := .bool true, default := some (.bool false), nargs := .n 0 },
      { names := [c!"--name"], required := true } ]

theorem demoParser_built : demoParser.Built := by
  unfold demoParser OptParser.addAll
  simp only [List.foldl_cons, List.foldl_nil]
  repeat (refine OptParser.Built.add ?_ (by decide))
  exact .empty

theorem demoParser_types (lineno : Option Int) : demoParser.TypesOk lineno := by
  apply C10_table
  intro a ha
  simp only [List.mem_cons, List.not_mem_nil, or_false] at ha
  rcases ha with rfl | rfl | rfl | rfl | rfl | rfl | rfl <;> simp [Arg.type, Ty.run]

-- non-vacuity: an error and a success
example : demoParser.parseArgs (some 7) [c!"--size=x", c!"--name=n"] = .error (.parse c!"invalid value" (some 7)) := by
  decide
example : (demoParser.parseArgs (some 7) [c!"--size=3", c!"--name=n"]).toOption.isSome = true := by decide

/-! ## C11 -/

/-- C11, value options: the last value given for a destination is the one kept. -/
theorem C11_store_last_wins (p : OptParser) (hb : p.Built) (lineno : Option Int) (pos : List Str)
    (hpos : ∀ w ∈ pos, startsWith w c!"-" = false) (l r : List Tok) (name v : Str) (a : Action)
    (ha : (name, a) ∈ p.strings) (hk : a.kind = .store) (hn : a.nargs = .one) (ho : p.Owns a)
    (hfit : ∀ t ∈ l ++ r, t.Fits p)
    (hlast : ∀ t ∈ r, ∀ b, (t.name, b) ∈ p.strings → b.dest ≠ a.dest)
    (ns : Ns) (ex : List Str)
    (h : p.parseKnown lineno (pos ++ (l ++ ⟨name, some v⟩ :: r).map Tok.text) = .ok (ns, ex)) :
    ∃ x, a.type v = .ok x ∧ ns.get a.dest = some x := by
  have wf := hb.wf
  have hl := wf.lookup ha
  have hfit' : ∀ t ∈ l ++ ⟨name, some v⟩ :: r, t.Fits p := by
    intro t ht
    rcases List.mem_append.1 ht with ht | ht
    · exact hfit t (by simp [ht])
    · rcases List.mem_cons.1 ht with rfl | ht
      · exact ⟨a, ha, by rw [hn]; rfl⟩
      · exact hfit t (by simp [ht])
  obtain ⟨hg, hok⟩ := parseKnown_canon_get wf hpos hfit' h ho ⟨⟨name, some v⟩, by simp, hl⟩
  obtain ⟨b, x, hb', hx⟩ := hok ⟨name, some v⟩ (by simp)
  simp only [hl, Option.some.injEq] at hb'
  subst hb'
  have hx2 := hx
  have hopts : a.opts ≠ [] := List.ne_nil_of_mem (wf.mem _ ha)
  simp only [Option.toList, getValues, if_neg hopts, hn, bind, Except.bind] at hx
  have hval : getValue lineno a v = .ok x := by
    split at hx
    · cases hx
    · rename_i y hy
      split at hx
      · cases hx
      · simp only [pure, Except.pure, Except.ok.injEq] at hx
        rw [← hx]; exact hy
  have htype : a.type v = .ok x := by
    unfold getValue at hval
    split at hval
    · rename_i y hy; rw [hy]; exact hval
    · cases hval
    · cases hval
    · cases hval
  refine ⟨x, htype, ?_⟩
  rw [hg, runKey_append, runKey]
  simp only [hl, hx2, if_pos]
  rw [runKey_other]
  · simp only [actVal, hk]
  · intro t ht e
    simp only [tokDest, Option.map_eq_some_iff] at e
    obtain ⟨b, hb1, hb2⟩ := e
    exact hlast t ht b (OptParser.lookup_mem hb1) hb2

/-- The values given to the option called `name`, in order. -/
def valuesOf (name : Str) (ts : List Tok) : List Str :=
  ts.filterMap fun t => if t.name = name then t.val else none

/-- The elements of a list attribute (`None` counts as no elements). -/
def elems : Option Val → List Str
  | some (.list l) => l
  | _ => []

theorem getValues_one {lineno : Option Int} {a : Action} {v : Str} {x : Val} (hopts : a.opts ≠ []) (hn : a.nargs = .one)
    (hx : getValues lineno a [v] = .ok x) : a.type v = .ok x := by
  simp only [getValues, if_neg hopts, hn, bind, Except.bind] at hx
  have hval : getValue lineno a v = .ok x := by
    split at hx
    · cases hx
    · rename_i y hy
      split at hx
      · cases hx
      · simp only [pure, Except.pure, Except.ok.injEq] at hx
        rw [← hx]; exact hy
  unfold getValue at hval
  split at hval
  · rename_i y hy; rw [hy]; exact hval
  · cases hval
  · cases hval
  · cases hval

/-- Accumulating kinds, as one fold. -/
theorem runKey_accum {p : OptParser} (wf : p.WF) {lineno : Option Int} {name : Str} {a : Action}
    (ha : (name, a) ∈ p.strings) (hn : a.nargs = .one) (f : Str → List Str)
    (hacc : ∀ v x old, a.type v = .ok x → (old = .none ∨ ∃ l, old = .list l) →
      actVal a x old = .list (elems (some old) ++ f v))
    (ts : List Tok) (hfit : ∀ t ∈ ts, t.Fits p)
    (hok : ∀ t ∈ ts, ∃ b v, p.lookup t.name = some b ∧ getValues lineno b t.val.toList = .ok v)
    (honly : ∀ t ∈ ts, ∀ b, (t.name, b) ∈ p.strings → b.dest = a.dest → t.name = name)
    (o : Option Val) (ho : o = none ∨ o = some .none ∨ ∃ l, o = some (.list l)) :
    elems (runKey p lineno a.dest ts o) = elems o ++ ((valuesOf name ts).map f).flatten ∧
    (valuesOf name ts ≠ [] → ∃ l, runKey p lineno a.dest ts o = some (.list l)) := by
  induction ts generalizing o with
  | nil => simp [runKey, valuesOf]
  | cons t ts ih =>
    have ih := ih (fun t ht => hfit t (by simp [ht])) (fun t ht => hok t (by simp [ht]))
      (fun t ht => honly t (by simp [ht]))
    obtain ⟨b, x, hb, hx⟩ := hok t (by simp)
    have hbm := OptParser.lookup_mem hb
    rw [runKey]
    simp only [hb, hx]
    by_cases hd : b.dest = a.dest
    · have hname := honly t (by simp) b hbm hd
      have hba : b = a := nodup_keys_inj wf.nodup (by rw [← hname]; exact hbm) ha
      subst hba
      obtain ⟨a', ha', hm⟩ := hfit t (by simp)
      have : a' = b := nodup_keys_inj wf.nodup ha' hbm
      subst this
      have hval : ∃ v, t.val = some v := by
        cases hv : t.val with
        | some v => exact ⟨v, rfl⟩
        | none => rw [hv, hn] at hm; simp [matchOptional] at hm
      obtain ⟨v, hv⟩ := hval
      have hopts : a'.opts ≠ [] := List.ne_nil_of_mem (wf.mem _ ha')
      rw [hv] at hx
      have htype := getValues_one hopts hn hx
      rw [if_pos hd]
      have hold : (o.getD .none = .none ∨ ∃ l, o.getD .none = .list l) := by
        rcases ho with rfl | rfl | ⟨l, rfl⟩
        · exact Or.inl rfl
        · exact Or.inl rfl
        · exact Or.inr ⟨l, rfl⟩
      have hact := hacc v x (o.getD .none) htype hold
      have hel : elems (some (o.getD .none)) = elems o := by
        rcases ho with rfl | rfl | ⟨l, rfl⟩ <;> rfl
      rw [hact, hel]
      obtain ⟨h1, h2⟩ := ih (some (.list (elems o ++ f v))) (Or.inr (Or.inr ⟨_, rfl⟩))
      have hvs : valuesOf name (t :: ts) = v :: valuesOf name ts := by
        simp [valuesOf, hname, hv]
      refine ⟨?_, fun _ => ?_⟩
      · rw [h1, hvs]
        simp [elems]
      · by_cases hnil : valuesOf name ts = []
        · have : runKey p lineno a'.dest ts (some (.list (elems o ++ f v))) = some (.list (elems o ++ f v)) := by
            apply runKey_other
            intro t' ht' e
            simp only [tokDest, Option.map_eq_some_iff] at e
            obtain ⟨c, hc1, hc2⟩ := e
            have hn' := honly t' (by simp [ht']) c (OptParser.lookup_mem hc1) hc2
            obtain ⟨a2, ha2, hm2⟩ := hfit t' (by simp [ht'])
            have : a2 = a' := nodup_keys_inj wf.nodup (by rw [hn'] at ha2; exact ha2) ha
            subst this
            cases hv' : t'.val with
            | none => rw [hv', hn] at hm2; simp [matchOptional] at hm2
            | some v' =>
              have : v' ∈ valuesOf name ts := List.mem_filterMap.2 ⟨t', ht', by simp [hn', hv']⟩
              rw [hnil] at this
              simp at this
          exact ⟨_, this⟩
        · exact h2 hnil
    · rw [if_neg hd]
      have hne : t.name ≠ name := by
        rintro rfl
        exact hd (by rw [nodup_keys_inj wf.nodup hbm ha])
      have hvs : valuesOf name (t :: ts) = valuesOf name ts := by
        simp [valuesOf, hne]
      rw [hvs]
      exact ih o ho

/-- C11, `append` options: all values are collected in order, after the default. -/
theorem C11_append_in_order (p : OptParser) (hb : p.Built) (lineno : Option Int) (pos : List Str)
    (hpos : ∀ w ∈ pos, startsWith w c!"-" = false) (ts : List Tok) (name : Str) (a : Action)
    (ha : (name, a) ∈ p.strings) (hk : a.kind = .append) (hn : a.nargs = .one)
    (hty : a.type = fun s => .ok (.str s)) (ho : p.Owns a)
    (hfit : ∀ t ∈ ts, t.Fits p)
    (honly : ∀ t ∈ ts, ∀ b, (t.name, b) ∈ p.strings → b.dest = a.dest → t.name = name)
    (hdef : p.defaults.get a.dest = some .none ∨ ∃ l, p.defaults.get a.dest = some (.list l))
    (hne : valuesOf name ts ≠ [])
    (ns : Ns) (ex : List Str) (h : p.parseKnown lineno (pos ++ ts.map Tok.text) = .ok (ns, ex)) :
    ns.get a.dest = some (.list (elems (p.defaults.get a.dest) ++ valuesOf name ts)) := by
  have wf := hb.wf
  have hseen : ∃ t ∈ ts, p.lookup t.name = some a := by
    cases hv : valuesOf name ts with
    | nil => exact (hne hv).elim
    | cons v vs =>
      have : v ∈ valuesOf name ts := by rw [hv]; simp
      obtain ⟨t, ht, he⟩ := List.mem_filterMap.1 this
      split at he
      · rename_i hn; exact ⟨t, ht, by rw [hn]; exact wf.lookup ha⟩
      · cases he
  obtain ⟨hg, hok⟩ := parseKnown_canon_get wf hpos hfit h ho hseen
  obtain ⟨h1, h2⟩ := runKey_accum wf (lineno := lineno) ha hn (fun v => [v]) (by
    intro v x old hx hold
    rw [hty] at hx
    injection hx with hx
    subst hx
    simp only [actVal, hk]
    rcases hold with rfl | ⟨l, rfl⟩ <;> rfl) ts hfit hok honly (p.defaults.get a.dest) (by
      rcases hdef with h | h
      · exact Or.inr (Or.inl h)
      · exact Or.inr (Or.inr h))
  obtain ⟨l, hl⟩ := h2 hne
  rw [hl] at h1
  rw [hg, hl]
  have : ((valuesOf name ts).map fun v => [v]).flatten = valuesOf name ts := by
    generalize valuesOf name ts = w
    induction w with
    | nil => rfl
    | cons a t ih => simp [ih]
  rw [this] at h1
  simp only [elems] at h1
  rw [h1]
  rfl

/-- C11, `ExtendAction` options: the lists of all occurrences are concatenated in order, after
the default. -/
theorem C11_extend_in_order (p : OptParser) (hb : p.Built) (lineno : Option Int) (pos : List Str)
    (hpos : ∀ w ∈ pos, startsWith w c!"-" = false) (ts : List Tok) (name : Str) (a : Action)
    (ha : (name, a) ∈ p.strings) (hk : a.kind = .extend) (hn : a.nargs = .one)
    (hty : a.type = tyComma) (ho : p.Owns a)
    (hfit : ∀ t ∈ ts, t.Fits p)
    (honly : ∀ t ∈ ts, ∀ b, (t.name, b) ∈ p.strings → b.dest = a.dest → t.name = name)
    (hdef : p.defaults.get a.dest = some .none ∨ ∃ l, p.defaults.get a.dest = some (.list l))
    (hne : valuesOf name ts ≠ [])
    (ns : Ns) (ex : List Str) (h : p.parseKnown lineno (pos ++ ts.map Tok.text) = .ok (ns, ex)) :
    ns.get a.dest = some (.list (elems (p.defaults.get a.dest) ++ ((valuesOf name ts).map commaSplit).flatten)) := by
  have wf := hb.wf
  have hseen : ∃ t ∈ ts, p.lookup t.name = some a := by
    cases hv : valuesOf name ts with
    | nil => exact (hne hv).elim
    | cons v vs =>
      have : v ∈ valuesOf name ts := by rw [hv]; simp
      obtain ⟨t, ht, he⟩ := List.mem_filterMap.1 this
      split at he
      · rename_i hn; exact ⟨t, ht, by rw [hn]; exact wf.lookup ha⟩
      · cases he
  obtain ⟨hg, hok⟩ := parseKnown_canon_get wf hpos hfit h ho hseen
  obtain ⟨h1, h2⟩ := runKey_accum wf (lineno := lineno) ha hn commaSplit (by
    intro v x old hx hold
    rw [hty] at hx
    injection hx with hx
    subst hx
    simp only [actVal, hk]
    rcases hold with rfl | ⟨l, rfl⟩
    · simp [elems]
    · simp [elems, Val.concat]) ts hfit hok honly (p.defaults.get a.dest) (by
      rcases hdef with h | h
      · exact Or.inr (Or.inl h)
      · exact Or.inr (Or.inr h))
  obtain ⟨l, hl⟩ := h2 hne
  rw [hl] at h1
  rw [hg, hl]
  simp only [elems] at h1
  rw [h1]
  rfl

-- non-vacuity: the hypotheses on the option and on the tokens hold for real option tables
example : ∀ kv ∈ demoParser.strings, demoParser.Owns kv.2 := by decide +kernel
theorem Tok.fits_of_check {p : OptParser} {t : Tok}
    (h : (p.strings.any fun kv => kv.1 == t.name &&
      matchOptional kv.2.nargs (t.val.toList.map fun v => (v, Cls.A)) == some t.val.toList.length) = true) : t.Fits p := by
  obtain ⟨⟨k, a⟩, hm, hc⟩ := List.any_eq_true.1 h
  simp only [Bool.and_eq_true, beq_iff_eq] at hc
  exact ⟨a, by rw [← hc.1]; exact hm, hc.2⟩
example : ∀ t ∈ [(⟨c!"--size", some c!"1"⟩ : Tok), ⟨c!"--grow", none⟩, ⟨c!"--svc", some c!"a,b"⟩], t.Fits demoParser := by
  intro t ht
  apply Tok.fits_of_check
  simp only [List.mem_cons, List.not_mem_nil, or_false] at ht
  rcases ht with rfl | rfl | rfl <;> decide +kernel
example : (demoParser.parseArgs none [c!"/", c!"--size=1", c!"--note=a", c!"--services=x,y", c!"--size=2", c!"--note=b",
    c!"--name=n", c!"--services=z"]).toOption.map (fun ns => (ns.get c!"size", ns.get c!"note", ns.get c!"services")) =
    some (some (.int 2), some (.list [c!"a", c!"b"]), some (.list [c!"x", c!"y", c!"z"])) := by decide +kernel

/-! ## C12 -/

/-- Two namespaces with the same attributes. -/
def Ns.Same (a b : Ns) : Prop := ∀ k, a.get k = b.get k

theorem takeAction_same {lineno : Option Int} {a : Action} {l : List Str} {n1 n2 m1 : Ns} (hs : n1.Same n2)
    (h : takeAction lineno a l n1 = .ok m1) : ∃ m2, takeAction lineno a l n2 = .ok m2 ∧ m1.Same m2 := by
  obtain ⟨v, hv, rfl⟩ := takeAction_ok h
  refine ⟨applyAction a v n2, by simp [takeAction, hv, Except.map], ?_⟩
  intro k
  rw [applyAction_eq, Ns.get_set, Ns.get_set, hs k]
  simp only [Ns.getD, hs a.dest]

/-- Two loop states that differ at most in the order of attributes and of `seen`. -/
structure LoopSt.Same (a b : LoopSt) : Prop where
  ns : a.ns.Same b.ns
  positionals : a.positionals = b.positionals
  extras : a.extras = b.extras
  seen : ∀ i, i ∈ a.seen ↔ i ∈ b.seen

theorem takePositionals_same {lineno : Option Int} {as : List Action} {ks : List Nat} {s1 s2 s1' : LoopSt}
    {rest rest' : Args} (hs : s1.Same s2) (h : takePositionals lineno as ks s1 rest = .ok (s1', rest')) :
    ∃ s2', takePositionals lineno as ks s2 rest = .ok (s2', rest') ∧ s1'.Same s2' := by
  induction as generalizing ks s1 s2 rest with
  | nil =>
    simp only [takePositionals, Except.ok.injEq, Prod.mk.injEq] at h ⊢
    exact ⟨s2, ⟨rfl, h.2⟩, h.1 ▸ hs⟩
  | cons a as ih =>
    cases ks with
    | nil =>
      simp only [takePositionals, Except.ok.injEq, Prod.mk.injEq] at h ⊢
      exact ⟨s2, ⟨rfl, h.2⟩, h.1 ▸ hs⟩
    | cons k ks =>
      simp only [takePositionals] at h ⊢
      split at h
      · cases h
      · rename_i m1 hm
        obtain ⟨m2, hm2, hsm⟩ := takeAction_same hs.ns hm
        rw [hm2]
        have hs' : LoopSt.Same { s1 with ns := m1, seen := a.id :: s1.seen } { s2 with ns := m2, seen := a.id :: s2.seen } :=
          ⟨hsm, hs.positionals, hs.extras, fun i => by simp only [List.mem_cons, hs.seen i]⟩
        exact ih hs' h

theorem consumePositionals_same {lineno : Option Int} {s1 s2 s1' : LoopSt}
    {rest rest' : Args} (hs : s1.Same s2) (h : consumePositionals lineno s1 rest = .ok (s1', rest')) :
    ∃ s2', consumePositionals lineno s2 rest = .ok (s2', rest') ∧ s1'.Same s2' := by
  unfold consumePositionals at h ⊢
  simp only at h ⊢
  split at h
  · cases h
  · rename_i s3 r3 ht
    simp only [Except.ok.injEq, Prod.mk.injEq] at h
    rw [← hs.positionals]
    obtain ⟨s4, h4, hs4⟩ := takePositionals_same hs ht
    rw [h4]
    refine ⟨_, by simp only [h.2]; rfl, ?_⟩
    rw [← h.1]
    exact ⟨hs4.ns, rfl, hs4.extras, hs4.seen⟩

theorem finish_same {lineno : Option Int} {seen1 seen2 : List Nat} (hseen : ∀ i, i ∈ seen1 ↔ i ∈ seen2)
    {as : List Action} {n1 n2 m1 : Ns} {m b : Bool} (hs : n1.Same n2)
    (h : finish lineno seen1 as n1 m = .ok (m1, b)) :
    ∃ m2, finish lineno seen2 as n2 m = .ok (m2, b) ∧ m1.Same m2 := by
  induction as generalizing n1 n2 m with
  | nil =>
    simp only [finish, Except.ok.injEq, Prod.mk.injEq] at h ⊢
    exact ⟨n2, ⟨rfl, h.2⟩, h.1 ▸ hs⟩
  | cons a as ih =>
    rw [finish] at h ⊢
    by_cases h1 : a.id ∈ seen1
    · rw [if_pos h1] at h
      rw [if_pos ((hseen _).1 h1)]
      exact ih hs h
    · rw [if_neg h1] at h
      rw [if_neg (fun e => h1 ((hseen _).2 e))]
      split at h
      · rename_i hr; rw [if_pos hr]; exact ih hs h
      · rename_i hr
        rw [if_neg hr]
        split at h
        · rename_i s hd
          rw [← hs a.dest]
          split at h
          · rename_i he
            rw [if_pos he]
            split at h
            · cases h
            · refine ih ?_ h
              intro k
              rw [Ns.get_set, Ns.get_set, hs k]
          · rename_i he
            rw [if_neg he]
            exact ih hs h
        · rename_i hd
          exact ih hs h

/-- C12: two lines with the same words followed by the same options in another order, where
options writing to the same destination keep their relative order, parse alike. -/
theorem C12_option_order (p : OptParser) (hb : p.Built) (lineno : Option Int) (pos : List Str)
    (hpos : ∀ w ∈ pos, startsWith w c!"-" = false) (ts ts' : List Tok) (hfit : ∀ t ∈ ts, t.Fits p)
    (hperm : ts.Perm ts')
    (hkeep : ∀ d, ts.filter (fun t => tokDest p t = some d) = ts'.filter (fun t => tokDest p t = some d))
    (ns : Ns) (ex : List Str) (h : p.parseKnown lineno (pos ++ ts.map Tok.text) = .ok (ns, ex)) :
    ∃ ns', p.parseKnown lineno (pos ++ ts'.map Tok.text) = .ok (ns', ex) ∧ ∀ k, ns'.get k = ns.get k := by
  have wf := hb.wf
  have hfit' : ∀ t ∈ ts', t.Fits p := fun t ht => hfit t (hperm.mem_iff.2 ht)
  rw [parseKnown_canon wf lineno hpos hfit] at h
  rw [parseKnown_canon wf lineno hpos hfit']
  -- the loops end in equivalent states
  have hloop : ∀ st rest, canonLoop p lineno pos ts = .ok (st, rest) →
      ∃ st', canonLoop p lineno pos ts' = .ok (st', rest) ∧ st.Same st' := by
    intro st rest hc
    unfold canonLoop at hc ⊢
    by_cases hn : ts = []
    · subst hn
      have : ts' = [] := hperm.nil_eq.symm
      subst this
      exact ⟨st, hc, fun _ => rfl, rfl, rfl, fun _ => Iff.rfl⟩
    · have hn' : ts' ≠ [] := by rintro rfl; exact hn hperm.eq_nil
      rw [if_neg hn] at hc
      rw [if_neg hn']
      split at hc
      · cases hc
      · rename_i st0 hpl
        split at hc
        · cases hc
        · rename_i n1 hr
          have hok := runToks_ok_iff.1 ⟨n1, hr⟩
          obtain ⟨n2, hr2⟩ := (runToks_ok_iff (ns := st0.ns)).2 (fun t ht => hok t (hperm.mem_iff.2 ht))
          rw [hr2]
          simp only
          have hs' : LoopSt.Same { st0 with ns := n1, seen := (tokIds p ts).reverse ++ st0.seen }
              { st0 with ns := n2, seen := (tokIds p ts').reverse ++ st0.seen } := by
            refine ⟨?_, rfl, rfl, ?_⟩
            · intro k
              rw [runToks_get hr k, runToks_get hr2 k, runKey_filter, runKey_filter p lineno k ts', hkeep k]
            · intro i
              have := (hperm.filterMap (fun t => (p.lookup t.name).map (·.id))).mem_iff (a := i)
              simp only [List.mem_append, List.mem_reverse]
              unfold tokIds
              rw [this]
          exact consumePositionals_same hs' hc
  split at h
  · cases h
  · rename_i st rest hc
    obtain ⟨st', hc', hs⟩ := hloop st rest hc
    rw [hc']
    split at h
    · cases h
    · rename_i n1 missing hf
      obtain ⟨n2, hf2, hs2⟩ := finish_same hs.seen hs.ns hf
      simp only [hf2]
      split at h
      · cases h
      · rename_i hm
        rw [if_neg hm]
        simp only [Except.ok.injEq, Prod.mk.injEq] at h
        exact ⟨n2, by rw [← hs.extras, h.2], fun k => by rw [← h.1]; exact (hs2 k).symm⟩

/-- C12: in particular any permutation of options with pairwise different destinations; both
orders succeed with the same attributes, or both fail. -/
theorem C12_distinct_destinations (p : OptParser) (hb : p.Built) (lineno : Option Int) (pos : List Str)
    (hpos : ∀ w ∈ pos, startsWith w c!"-" = false) (ts ts' : List Tok) (hfit : ∀ t ∈ ts, t.Fits p)
    (hperm : ts.Perm ts') (hdist : ts.Pairwise (fun t u => tokDest p t ≠ tokDest p u)) :
    (∃ ns ns' ex, p.parseKnown lineno (pos ++ ts.map Tok.text) = .ok (ns, ex) ∧
      p.parseKnown lineno (pos ++ ts'.map Tok.text) = .ok (ns', ex) ∧ ∀ k, ns'.get k = ns.get k) ∨
    ((∃ e, p.parseKnown lineno (pos ++ ts.map Tok.text) = .error e) ∧
      ∃ e, p.parseKnown lineno (pos ++ ts'.map Tok.text) = .error e) := by
  have hlen : ∀ (l : List Tok) (d : Str), l.Pairwise (fun t u => tokDest p t ≠ tokDest p u) →
      (l.filter (fun t => tokDest p t = some d)).length ≤ 1 := by
    intro l d hl
    have h1 := hl.filter (fun t => tokDest p t = some d)
    have h2 : ∀ x ∈ l.filter (fun t => tokDest p t = some d), tokDest p x = some d := by
      intro x hx; simpa using (List.mem_filter.1 hx).2
    generalize l.filter (fun t => tokDest p t = some d) = m at h1 h2
    match m with
    | [] => simp
    | [_] => simp
    | a :: b :: m =>
      rw [List.pairwise_cons] at h1
      exact absurd (by rw [h2 a (by simp), h2 b (by simp)]) (h1.1 b (by simp))
  have hkeep : ∀ d, ts.filter (fun t => tokDest p t = some d) = ts'.filter (fun t => tokDest p t = some d) := by
    intro d
    have hp := hperm.filter (fun t => tokDest p t = some d)
    have h1 := hlen ts d hdist
    generalize ts.filter (fun t => tokDest p t = some d) = m at hp h1
    match m with
    | [] => exact hp.nil_eq
    | [a] => exact List.singleton_perm.1 hp
    | a :: b :: m => simp at h1
  have hfit' : ∀ t ∈ ts', t.Fits p := fun t ht => hfit t (hperm.mem_iff.2 ht)
  cases h1 : p.parseKnown lineno (pos ++ ts.map Tok.text) with
  | ok r =>
    obtain ⟨ns, ex⟩ := r
    obtain ⟨ns', h2, h3⟩ := C12_option_order p hb lineno pos hpos ts ts' hfit hperm hkeep ns ex h1
    exact Or.inl ⟨ns, ns', ex, rfl, h2, h3⟩
  | error e =>
    right
    refine ⟨⟨e, rfl⟩, ?_⟩
    cases h2 : p.parseKnown lineno (pos ++ ts'.map Tok.text) with
    | error e' => exact ⟨e', rfl⟩
    | ok r =>
      obtain ⟨ns, ex⟩ := r
      obtain ⟨ns', h3, _⟩ := C12_option_order p hb lineno pos hpos ts' ts hfit' hperm.symm
        (fun d => (hkeep d).symm) ns ex h2
      rw [h1] at h3
      cases h3

-- non-vacuity
example : (demoParser.parseArgs none [c!"/", c!"--name=n", c!"--size=1", c!"--grow"]).toOption.map
      (fun ns => (ns.get c!"size", ns.get c!"grow")) = some (some (.int 1), some (.bool true)) ∧
    (demoParser.parseArgs none [c!"/", c!"--grow", c!"--size=1", c!"--name=n"]).toOption.map
      (fun ns => (ns.get c!"size", ns.get c!"grow")) = some (some (.int 1), some (.bool true)) := by decide +kernel

/-! ## C13

`ab` is the part of the argument before `=`; `v` the text after it, if there is a `=`. -/

/-- C13: an argument that is exactly a registered option selects it, whatever other options it
is a prefix of. -/
theorem C13_exact (p : OptParser) (hb : p.Built) (lineno : Option Int) (k : Str) (a : Action)
    (h : (k, a) ∈ p.strings) (v : Option Str) :
    p.parseOptional lineno (k ++ valText v) = .ok (.O ⟨some a, v⟩) := by
  cases v with
  | none => simpa [valText] using parseOptional_exact hb.wf lineno h
  | some v => exact parseOptional_kv hb.wf lineno h

/-- C13: a prefix of exactly one registered option means the same as writing that option out. -/
theorem C13_unique_abbreviation (p : OptParser) (hb : p.Built) (lineno : Option Int) (ab k : Str) (a : Action)
    (hd : startsWith ab c!"--" = true) (heq : '=' ∉ ab)
    (hk : (k, a) ∈ p.strings) (hpre : ab <+: k)
    (huniq : ∀ k' a', (k', a') ∈ p.strings → ab <+: k' → k' = k)
    (v : Option Str) (hab : ab ++ valText v ≠ c!"--") (pre post : List Str) (hdd : c!"--" ∉ pre) :
    p.parseArgs lineno (pre ++ (ab ++ valText v) :: post) = p.parseArgs lineno (pre ++ (k ++ valText v) :: post) := by
  have wf := hb.wf
  have hcls : p.parseOptional lineno (ab ++ valText v) = .ok (.O ⟨some a, v⟩) := by
    by_cases hin : ab ∈ p.strings.map (·.1)
    · obtain ⟨⟨k', a'⟩, hm, rfl⟩ := List.mem_map.1 hin
      have hkk := huniq k' a' hm (List.prefix_refl _)
      subst hkk
      have : a' = a := nodup_keys_inj wf.nodup hm hk
      subst this
      exact C13_exact p hb lineno _ _ hm v
    · rw [parseOptional_abbrev wf lineno hd heq hin v]
      have : p.strings.filter (fun kv => startsWith kv.1 ab) = [(k, a)] := by
        have hnd := wf.nodup
        generalize p.strings = l at hk huniq hnd
        induction l with
        | nil => simp at hk
        | cons x l ih =>
          simp only [List.map_cons, List.nodup_cons] at hnd
          rcases List.mem_cons.1 hk with e | hk'
          · subst e
            rw [List.filter_cons, if_pos (by simpa [startsWith] using hpre)]
            rw [List.filter_eq_nil_iff.2]
            intro y hy hys
            have := huniq y.1 y.2 (by simp [hy]) (by simpa [startsWith] using hys)
            exact hnd.1 (List.mem_map.2 ⟨y, hy, this⟩)
          · rw [List.filter_cons, if_neg, ih hk' (fun k' a' hm => huniq k' a' (by simp [hm])) hnd.2]
            intro hx
            have := huniq x.1 x.2 (by simp) (by simpa [startsWith] using hx)
            exact hnd.1 (List.mem_map.2 ⟨_, hk', this.symm⟩)
      rw [this]
  have hcls2 := C13_exact p hb lineno k a hk v
  have hne2 : k ++ valText v ≠ c!"--" := by
    intro e
    have h1 := (wf.keys _ hk).2.1
    have := congrArg List.length e
    simp only [List.length_append, List.length_cons, List.length_nil] at this h1
    omega
  have hkn : p.parseKnown lineno (pre ++ (ab ++ valText v) :: post) = p.parseKnown lineno (pre ++ (k ++ valText v) :: post) := by
    unfold OptParser.parseKnown
    rw [classify_append _ _ _ _ hdd, classify_append _ _ _ _ hdd, classify_cons _ _ _ _ hab, classify_cons _ _ _ _ hne2,
      hcls, hcls2]
    cases p.classify lineno pre with
    | error e => rfl
    | ok c1 =>
      simp only
      cases p.classify lineno post with
      | error e => rfl
      | ok c2 =>
        simp only
        have hl : (c1 ++ (ab ++ valText v, Cls.O ⟨some a, v⟩) :: c2).length =
            (c1 ++ (k ++ valText v, Cls.O ⟨some a, v⟩) :: c2).length := by simp
        rw [hl, parseLoop_congr (l := c1 ++ (ab ++ valText v, Cls.O ⟨some a, v⟩) :: c2)
          (l' := c1 ++ (k ++ valText v, Cls.O ⟨some a, v⟩) :: c2) (by simp) (by
            simp only [List.map_append, List.map_cons]; rfl)]
  unfold OptParser.parseArgs
  rw [hkn]

/-- C13: a prefix of several registered options, none of them exactly, is rejected. -/
theorem C13_ambiguous_rejected (p : OptParser) (hb : p.Built) (lineno : Option Int) (ab k k' : Str)
    (hd : startsWith ab c!"--" = true) (heq : '=' ∉ ab)
    (hk : k ∈ p.strings.map (·.1)) (hk' : k' ∈ p.strings.map (·.1)) (hne : k ≠ k')
    (hpre : ab <+: k) (hpre' : ab <+: k') (hnot : ab ∉ p.strings.map (·.1))
    (v : Option Str) (hab : ab ++ valText v ≠ c!"--") (pre post : List Str) (hdd : c!"--" ∉ pre) :
    ∃ tag, p.parseArgs lineno (pre ++ (ab ++ valText v) :: post) = .error (.parse tag lineno) := by
  have wf := hb.wf
  have hcls : p.parseOptional lineno (ab ++ valText v) = .error (argErr c!"ambiguous option" lineno) := by
    rw [parseOptional_abbrev wf lineno hd heq hnot v]
    obtain ⟨x, hx, hx1⟩ := List.mem_map.1 hk
    obtain ⟨y, hy, hy1⟩ := List.mem_map.1 hk'
    have hxm : x ∈ p.strings.filter (fun kv => startsWith kv.1 ab) :=
      List.mem_filter.2 ⟨hx, by rw [hx1]; simpa [startsWith] using hpre⟩
    have hym : y ∈ p.strings.filter (fun kv => startsWith kv.1 ab) :=
      List.mem_filter.2 ⟨hy, by rw [hy1]; simpa [startsWith] using hpre'⟩
    cases hf : p.strings.filter (fun kv => startsWith kv.1 ab) with
    | nil => rw [hf] at hxm; simp at hxm
    | cons a l =>
      cases l with
      | cons b l => rfl
      | nil =>
        rw [hf] at hxm hym
        simp only [List.mem_singleton] at hxm hym
        exact absurd (by rw [← hx1, ← hy1, hxm, hym]) hne
  have hc : ∃ e, p.classify lineno (pre ++ (ab ++ valText v) :: post) = .error e := by
    rw [classify_append _ _ _ _ hdd, classify_cons _ _ _ _ hab, hcls]
    cases p.classify lineno pre with
    | error e => exact ⟨e, rfl⟩
    | ok c => exact ⟨_, rfl⟩
  obtain ⟨e, he⟩ := hc
  obtain ⟨tag, rfl⟩ := classify_err he
  refine ⟨tag, ?_⟩
  unfold OptParser.parseArgs OptParser.parseKnown
  rw [he]

theorem parseArgs_unknown {p : OptParser} {lineno : Option Int} {s : Str} {e : Option Str} (hne : s ≠ c!"--")
    (hcls : p.parseOptional lineno s = .ok (.O ⟨none, e⟩)) (pre post : List Str) (hdd : c!"--" ∉ pre) :
    ∃ e, p.parseArgs lineno (pre ++ s :: post) = .error e := by
  cases h : p.parseArgs lineno (pre ++ s :: post) with
  | error e => exact ⟨e, rfl⟩
  | ok ns =>
    exfalso
    unfold OptParser.parseArgs at h
    split at h
    · cases h
    · rename_i ns' ex hk
      split at h
      · cases h
      · rename_i hex
        unfold OptParser.parseKnown at hk
        split at hk
        · cases hk
        · rename_i cs hcs
          split at hk
          · cases hk
          · rename_i st rest hl
            split at hk
            · cases hk
            · split at hk
              · cases hk
              · simp only [Except.ok.injEq, Prod.mk.injEq] at hk
                have hun : ∃ x ∈ cs, IsUnknown x := by
                  rw [classify_append _ _ _ _ hdd, classify_cons _ _ _ _ hne, hcls] at hcs
                  split at hcs
                  · cases hcs
                  · rename_i c1 _
                    simp only at hcs
                    split at hcs
                    · cases hcs
                    · rename_i c2 hc2
                      split at hc2
                      · cases hc2
                      · injection hc2 with hc2
                        injection hcs with hcs
                        subst hcs; subst hc2
                        exact ⟨(s, .O ⟨none, e⟩), by simp, e, rfl⟩
                have := parseLoop_unknown (by omega) hun hl
                apply hex
                intro hnil
                rw [hnil] at hk
                have := hk.2
                simp only [List.append_eq_nil_iff] at this
                exact absurd this.1 (by assumption)

/-- C13: a dashed argument without blanks that is no registered option and no prefix of one is
rejected by `parse_args`. -/
theorem C13_unknown_rejected (p : OptParser) (hb : p.Built) (lineno : Option Int) (htypes : p.TypesOk lineno) (ab : Str)
    (hd : startsWith ab c!"--" = true) (heq : '=' ∉ ab)
    (hnone : ∀ k a, (k, a) ∈ p.strings → ¬ ab <+: k)
    (v : Option Str) (hab : ab ++ valText v ≠ c!"--") (hsp : ' ' ∉ ab ++ valText v)
    (pre post : List Str) (hdd : c!"--" ∉ pre) :
    ∃ tag, p.parseArgs lineno (pre ++ (ab ++ valText v) :: post) = .error (.parse tag lineno) := by
  have wf := hb.wf
  have hin : ab ∉ p.strings.map (·.1) := by
    intro hm
    obtain ⟨⟨k, a⟩, hm', rfl⟩ := List.mem_map.1 hm
    exact hnone k a hm' (List.prefix_refl _)
  have hcls : p.parseOptional lineno (ab ++ valText v) = .ok (.O ⟨none, none⟩) := by
    rw [parseOptional_abbrev wf lineno hd heq hin v]
    have : p.strings.filter (fun kv => startsWith kv.1 ab) = [] := by
      rw [List.filter_eq_nil_iff]
      intro kv hkv h
      exact hnone kv.1 kv.2 hkv (by simpa [startsWith] using h)
    rw [this]
    simp only [if_neg hsp]
  obtain ⟨e, he⟩ := parseArgs_unknown hab hcls pre post hdd
  obtain ⟨tag, rfl⟩ := C10_parse_args_error p lineno _ htypes e he
  exact ⟨tag, he⟩

-- non-vacuity, and the exact-name rule on `--size`, a prefix of `--sizemax`
example : (demoParser.parseArgs none [c!"--size=1", c!"--na=n"]).toOption.map (fun ns => (ns.get c!"size", ns.get c!"name")) =
    some (some (.int 1), some (.str c!"n")) := by decide +kernel
example : demoParser.parseArgs (some 3) [c!"--name=n", c!"--siz=1"] = .error (.parse c!"ambiguous option" (some 3)) := by decide +kernel
example : demoParser.parseArgs (some 3) [c!"--name=n", c!"--bogus=1"] = .error (.parse c!"unrecognized arguments" (some 3)) := by decide +kernel

/-- C13: an unknown dashed argument that contains a blank counts as a positional word. -/
theorem C13_unknown_with_blank_is_word (p : OptParser) (hb : p.Built) (lineno : Option Int) (ab : Str)
    (hd : startsWith ab c!"--" = true) (heq : '=' ∉ ab)
    (hnone : ∀ k a, (k, a) ∈ p.strings → ¬ ab <+: k) (v : Option Str) (hsp : ' ' ∈ ab ++ valText v) :
    p.parseOptional lineno (ab ++ valText v) = .ok .A := by
  have hin : ab ∉ p.strings.map (·.1) := by
    intro hm
    obtain ⟨⟨k, a⟩, hm', rfl⟩ := List.mem_map.1 hm
    exact hnone k a hm' (List.prefix_refl _)
  rw [parseOptional_abbrev hb.wf lineno hd heq hin v]
  have : p.strings.filter (fun kv => startsWith kv.1 ab) = [] := by
    rw [List.filter_eq_nil_iff]
    intro kv hkv h
    exact hnone kv.1 kv.2 hkv (by simpa [startsWith] using h)
  rw [this]
  simp only [if_pos hsp]

/-- C13: such an argument is accepted without complaint (here by a parser with a `*` positional). -/
theorem C13_unknown_with_blank_accepted :
    ∃ ns, demoParser.parseArgs none [c!"--name=n", c!"--bogus=a b"] = .ok ns ∧
      ns.get c!"mnt" = some (.list [c!"--bogus=a b"]) := by
  refine ⟨_, rfl, ?_⟩
  decide +kernel

/-! ## C14 -/

/-- An argument mentions an option if it is the option or an abbreviation, possibly with
`=value`. -/
def Mentions (arg o : Str) : Prop := ∃ ab v, arg = ab ++ valText v ∧ startsWith arg c!"-" = true ∧ ab <+: o

/-- C14: if parsing succeeds, every required option was mentioned. -/
theorem C14_required_given (p : OptParser) (hb : p.Built) (lineno : Option Int) (args : List Str)
    (a : Action) (ha : a ∈ p.actions) (hreq : a.required = true) (hopt : a.opts ≠ [])
    (ns : Ns) (ex : List Str) (h : p.parseKnown lineno args = .ok (ns, ex)) :
    ∃ arg ∈ args, ∃ o ∈ a.opts, Mentions arg o := by
  have wf := hb.wf
  unfold OptParser.parseKnown at h
  split at h
  · cases h
  · rename_i cs hcs
    split at h
    · cases h
    · rename_i st rest hl
      split at h
      · cases h
      · rename_i ns1 missing hf
        split at h
        · cases h
        · rename_i hm
          have hm' : missing = false := by simpa using hm
          subst hm'
          have hid := (finish_missing hf).2 a ha hreq
          rcases parseLoop_seen (by omega) hl a.id hid with h1 | ⟨b, hb1, hb2⟩ | ⟨s, t, b, hs, hact, hbid⟩
          · simp [OptParser.initSt] at h1
          · simp only [OptParser.initSt, List.mem_filter, List.isEmpty_iff] at hb1
            have : b = a := by
              have hu := wf.uniq
              exact List.inj_on_of_nodup_map hu hb1.1 ha hb2
            rw [this] at hb1
            exact (hopt hb1.2).elim
          · obtain ⟨hmem, hpo⟩ := classify_mem hcs hs
            refine ⟨s, hmem, ?_⟩
            obtain ⟨k, hk, hform⟩ := parseOptional_action hpo hact
            have hab : a = b := wf.same _ hk a ha hbid.symm
            subst hab
            have hdash : startsWith s c!"-" = true := by
              unfold OptParser.parseOptional at hpo
              split at hpo
              · cases hpo
              · rename_i hn; simpa using hn
            rcases hform with rfl | ⟨v, rfl⟩ | ⟨t', ht', rfl⟩
            · exact ⟨s, wf.mem _ hk, s, none, by simp [valText], hdash, List.prefix_refl _⟩
            · exact ⟨k, wf.mem _ hk, k, some v, rfl, hdash, List.prefix_refl _⟩
            · unfold OptParser.optionTuples at ht'
              split at ht'
              · rename_i tl
                obtain ⟨⟨k', b'⟩, hb', he⟩ := List.mem_filterMap.1 ht'
                simp only at he
                split at he
                · rename_i hsw
                  injection he with he
                  subst he
                  injection hact with hact
                  subst hact
                  refine ⟨k', wf.mem _ hb', (partition '=' ('-' :: '-' :: tl)).1,
                    if (partition '=' ('-' :: '-' :: tl)).2.1 then some (partition '=' ('-' :: '-' :: tl)).2.2 else none,
                    ?_, hdash, List.isPrefixOf_iff_prefix.1 hsw⟩
                  split
                  · rename_i hfound; exact partition_found _ _ hfound
                  · rename_i hnf
                    simp only [valText, List.append_nil]
                    exact (partition_not_found _ _ (by simpa using hnf)).1.symm
                · cases he
              · obtain ⟨⟨k', b'⟩, hb', he⟩ := List.mem_filterMap.1 ht'
                simp only at he
                have hkk := wf.keys _ hb'
                split at he
                · rename_i hk2
                  exfalso
                  have := congrArg List.length hk2
                  rw [List.length_take] at this
                  simp only at hkk
                  omega
                · split at he
                  · rename_i hsw
                    injection he with he
                    subst he
                    injection hact with hact
                    subst hact
                    exact ⟨k', wf.mem _ hb', s, none, by simp [valText], hdash, by simpa [startsWith] using hsw⟩
                  · cases he

/-- C14: without a mention of a required option, parsing raises `KickstartParseError`. -/
theorem C14_required_missing (p : OptParser) (hb : p.Built) (lineno : Option Int) (htypes : p.TypesOk lineno) (args : List Str)
    (a : Action) (ha : a ∈ p.actions) (hreq : a.required = true) (hopt : a.opts ≠ [])
    (hno : ∀ arg ∈ args, ∀ o ∈ a.opts, ¬ Mentions arg o) :
    ∃ tag, p.parseKnown lineno args = .error (.parse tag lineno) := by
  cases h : p.parseKnown lineno args with
  | ok r =>
    obtain ⟨ns, ex⟩ := r
    obtain ⟨arg, harg, o, ho, hm⟩ := C14_required_given p hb lineno args a ha hreq hopt ns ex h
    exact (hno arg harg o ho hm).elim
  | error e =>
    obtain ⟨tag, rfl⟩ := C10_parse_known_error p lineno args htypes e h
    exact ⟨tag, rfl⟩

-- non-vacuity
example : (demoParser.actions.any fun a => a.required && !a.opts.isEmpty) = true := by decide +kernel
example : demoParser.parseKnown (some 1) [c!"--size=1"] = .error (.parse c!"the following arguments are required" (some 1)) := by
  decide +kernel

/-! ## C15 -/

/-- C15: after `remove_argument(o)`, a line using `o` (or `o=value`) is rejected unless `o` is a
proper prefix of an option that is still there, or the value contains a blank. -/
theorem C15_removed_rejected (p : OptParser) (hb : p.Built) (lineno : Option Int) (htypes : p.TypesOk lineno) (o : Str)
    (hreg : ∃ a ∈ p.actions, o ∈ a.opts)
    (hnone : ∀ k a, (k, a) ∈ p.strings → k ≠ o → ¬ o <+: k)
    (v : Option Str) (hsp : ' ' ∉ valText v) (pre post : List Str) (hdd : c!"--" ∉ pre) :
    ∃ tag, (p.remove o).parseArgs lineno (pre ++ (o ++ valText v) :: post) = .error (.parse tag lineno) := by
  have wf := hb.wf
  obtain ⟨a, ha, hoa⟩ := hreg
  have hk := wf.keys _ (wf.reg a ha o hoa)
  simp only at hk
  refine C13_unknown_rejected (p.remove o) (.remove o hb) lineno (TypesOk_remove htypes o) o hk.1 hk.2.2.1 ?_ v ?_ ?_ pre post hdd
  · intro k b hm
    unfold OptParser.remove at hm
    split at hm
    · rename_i hf
      have := List.find?_eq_none.1 hf a ha
      simp [hoa] at this
    · simp only [List.mem_filter, bne_iff_ne] at hm
      exact hnone k b hm.1 hm.2
  · intro e
    have := congrArg List.length e
    simp only [List.length_append, List.length_cons, List.length_nil] at this
    omega
  · simp only [List.mem_append, not_or]
    exact ⟨hk.2.2.2, hsp⟩

-- non-vacuity
example : (demoParser.remove c!"--note").parseArgs (some 9) [c!"--name=n", c!"--note=x"] =
    .error (.parse c!"unrecognized arguments" (some 9)) := by decide +kernel

/-- C15, the exception: a removed option that is a prefix of a remaining one becomes an
abbreviation of that one. -/
theorem C15_removed_prefix_becomes_abbreviation :
    ∃ ns, (demoParser.remove c!"--size").parseArgs none [c!"--name=n", c!"--size=4"] = .ok ns ∧
      ns.get c!"sizemax" = some (.int 4) := by
  refine ⟨_, rfl, ?_⟩
  decide +kernel

/-- C15, the exception: the other spellings of a removed option are still accepted, and write an
attribute although the option is gone. -/
theorem C15_alias_survives :
    ∃ ns, (demoParser.remove c!"--services").parseArgs none [c!"--name=n", c!"--svc=a"] = .ok ns ∧
      ns.get c!"services" = some (.list [c!"a"]) := by
  refine ⟨_, rfl, ?_⟩
  decide +kernel

/-! ## C16 -/

/-- C16: `set_to_obj` changes exactly the attributes whose parsed value is not `None`. -/
theorem C16_set_to_obj (ns obj : Ns) (hns : ns.keys.Nodup) (k : Str) :
    (setToObj ns obj).get k =
      match ns.get k with
      | some .none => obj.get k
      | some v => some v
      | none => obj.get k := by
  unfold setToObj
  have main : ∀ (l : Ns) (o : Ns), l.keys.Nodup →
      Ns.get (l.foldl (fun o kv => if kv.2 ≠ .none then o.set kv.1 kv.2 else o) o) k =
      match l.get k with
      | some .none => o.get k
      | some v => some v
      | none => o.get k := by
    intro l
    induction l with
    | nil => intro o _; rfl
    | cons x l ih =>
      obtain ⟨k', v'⟩ := x
      intro o hn
      simp only [Ns.keys_cons, List.nodup_cons] at hn
      rw [List.foldl_cons, ih _ hn.2]
      by_cases hk : k = k'
      · subst hk
        have hl : Ns.get l k = none := (Ns.get_eq_none_iff l k).2 hn.1
        have hc : Ns.get ((k, v') :: l) k = some v' := by simp [Ns.get]
        rw [hl, hc]
        simp only
        by_cases hv : v' = .none
        · subst hv; simp
        · rw [if_pos hv, Ns.get_set_self]
          cases v' <;> simp_all
      · have hc : Ns.get ((k', v') :: l) k = Ns.get l k := by
          have : (k == k') = false := by simpa using hk
          simp [Ns.get, List.lookup_cons, this]
        rw [hc]
        have : (if v' ≠ Val.none then o.set k' v' else o).get k = o.get k := by
          split
          · exact Ns.get_set_ne _ _ (fun e => hk e.symm)
          · rfl
        simp only [this]
  exact main ns obj hns

/-- C16: the hypothesis holds of every namespace the parser returns. -/
theorem C16_known_keys (p : OptParser) (lineno : Option Int) (args : List Str) (ns : Ns) (ex : List Str)
    (hk : p.parseKnown lineno args = .ok (ns, ex)) : ns.keys.Nodup := by
  have hdef : p.defaults.keys.Nodup := by
    unfold OptParser.defaults
    have : ∀ (l : List Action) (n : Ns), n.keys.Nodup →
        (l.foldl (fun ns a => if (ns.get a.dest).isNone then ns.set a.dest a.default else ns) n).keys.Nodup := by
      intro l
      induction l with
      | nil => intro n hn; exact hn
      | cons a l ih =>
        intro n hn
        rw [List.foldl_cons]
        apply ih
        split
        · exact Ns.nodup_set hn _ _
        · exact hn
    exact this _ _ (by simp)
  have htake : ∀ {a : Action} {l : List Str} {n n' : Ns}, n.keys.Nodup → takeAction lineno a l n = .ok n' → n'.keys.Nodup := by
    intro a l n n' hn h
    obtain ⟨v, _, rfl⟩ := takeAction_ok h
    exact Ns.nodup_set hn _ _
  have htp : ∀ {as : List Action} {ks : List Nat} {st st' : LoopSt} {rest rest' : Args}, st.ns.keys.Nodup →
      takePositionals lineno as ks st rest = .ok (st', rest') → st'.ns.keys.Nodup := by
    intro as
    induction as with
    | nil =>
      intro ks st st' rest rest' hn h
      simp only [takePositionals, Except.ok.injEq, Prod.mk.injEq] at h
      rw [← h.1]; exact hn
    | cons a as ih =>
      intro ks st st' rest rest' hn h
      cases ks with
      | nil =>
        simp only [takePositionals, Except.ok.injEq, Prod.mk.injEq] at h
        rw [← h.1]; exact hn
      | cons k ks =>
        simp only [takePositionals] at h
        split at h
        · cases h
        · rename_i n1 hn1
          exact ih (st := { st with ns := n1, seen := a.id :: st.seen }) (htake hn hn1) h
  have hfin : ∀ {seen : List Nat} {as : List Action} {n n' : Ns} {m m' : Bool}, n.keys.Nodup →
      finish lineno seen as n m = .ok (n', m') → n'.keys.Nodup := by
    intro seen as
    induction as with
    | nil =>
      intro n n' m m' hn h
      simp only [finish, Except.ok.injEq, Prod.mk.injEq] at h
      rw [← h.1]; exact hn
    | cons a as ih =>
      intro n n' m m' hn h
      rw [finish] at h
      split at h
      · exact ih hn h
      · split at h
        · exact ih hn h
        · split at h
          · split at h
            · split at h
              · cases h
              · exact ih (Ns.nodup_set hn _ _) h
            · exact ih hn h
          · exact ih hn h
  unfold OptParser.parseKnown at hk
  split at hk
  · cases hk
  · split at hk
    · cases hk
    · rename_i st rest hl
      split at hk
      · cases hk
      · rename_i n1 missing hf
        split at hk
        · cases hk
        · simp only [Except.ok.injEq, Prod.mk.injEq] at hk
          rw [← hk.1]
          refine hfin ?_ hf
          refine parseLoop_inv (fun st _ => st.ns.keys.Nodup) (fun st _ => st.ns.keys.Nodup) ?_ ?_ ?_ ?_ _ _ _
            (Nat.lt_succ_self _) hdef hl
          · intro st s t tl st' rest' hP hc
            unfold consumeOptional at hc
            split at hc
            · simp only [Except.ok.injEq, Prod.mk.injEq] at hc
              rw [← hc.1]; exact hP
            · split at hc
              · split at hc
                · split at hc
                  · cases hc
                  · rename_i n2 hn2
                    simp only [Except.ok.injEq, Prod.mk.injEq] at hc
                    rw [← hc.1]; exact htake hP hn2
                · cases hc
                · cases hc
              · split at hc
                · cases hc
                · split at hc
                  · cases hc
                  · rename_i n2 hn2
                    simp only [Except.ok.injEq, Prod.mk.injEq] at hc
                    rw [← hc.1]; exact htake hP hn2
          · intro st pre tl _ hP; exact hP
          · intro st rest st' rest' hP hc
            unfold consumePositionals at hc
            simp only at hc
            split at hc
            · cases hc
            · rename_i s3 r3 ht
              simp only [Except.ok.injEq, Prod.mk.injEq] at hc
              rw [← hc.1]; have := htp hP ht; exact this
          · intro st rest _ hP; exact hP

/-- C16: the same for `parse_args`. -/
theorem C16_namespace_keys (p : OptParser) (lineno : Option Int) (args : List Str) (ns : Ns)
    (h : p.parseArgs lineno args = .ok ns) : ns.keys.Nodup := by
  unfold OptParser.parseArgs at h
  split at h
  · cases h
  · rename_i ns' ex hk
    split at h
    · cases h
    · injection h with h
      subst h
      exact C16_known_keys p lineno args _ _ hk

-- non-vacuity
example : (setToObj [(c!"size", .int 3), (c!"grow", .none)] [(c!"grow", .bool true), (c!"size", .int 0), (c!"x", .none)]).get c!"grow" =
    some (.bool true) := by decide

end Ks
