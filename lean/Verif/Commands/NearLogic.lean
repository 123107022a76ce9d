import Verif.Commands.Base
import Verif.ArgparseLine
import Verif.OptLemmas
/-!
# What `parse` methods do with the line number

Two attribute lists are `Near` if they differ at most in the value of `lineno`.  `M.Rel R m m'`: from
objects that differ only in line numbers, `m` and `m'` go to objects that differ only in line numbers,
and return values related by `R`, or raise exceptions that differ only in the line number.
-/
namespace Ks

/-! ## Attribute lists -/

/-- An object without its line number. -/
def Ns.unline (d : Ns) : Ns := d.map fun kv => if kv.1 = c!"lineno" then (kv.1, .int 0) else kv

/-- The objects differ only in the line number. -/
def Near (d d' : Ns) : Prop := d.unline = d'.unline

theorem Near.refl (d : Ns) : Near d d := rfl

theorem unline_get (d : Ns) {k : Str} (hk : k ≠ c!"lineno") : d.unline.get k = d.get k := by
  unfold Ns.get Ns.unline
  induction d with
  | nil => rfl
  | cons x t ih =>
    obtain ⟨k', v⟩ := x
    rw [List.map_cons]
    by_cases h : k' = c!"lineno"
    · rw [if_pos h, lookup_cons_ite, lookup_cons_ite, ih]
      have : k ≠ k' := fun e => hk (e.trans h)
      simp [this]
    · rw [if_neg h, lookup_cons_ite, lookup_cons_ite, ih]

theorem Near.get {d d' : Ns} (h : Near d d') {k : Str} (hk : k ≠ c!"lineno") : d.get k = d'.get k := by
  rw [← unline_get d hk, ← unline_get d' hk, h]

theorem Near.getD {d d' : Ns} (h : Near d d') {k : Str} (hk : k ≠ c!"lineno") : d.getD k = d'.getD k := by
  unfold Ns.getD
  rw [h.get hk]

theorem unline_set (d : Ns) (k : Str) (v : Val) :
    (d.set k v).unline = if k = c!"lineno" then d.unline.set k (.int 0) else d.unline.set k v := by
  induction d with
  | nil => by_cases h : k = c!"lineno" <;> simp [Ns.set, Ns.unline, h]
  | cons x t ih =>
    obtain ⟨k', v'⟩ := x
    by_cases hk : k' = k
    · by_cases h : k = c!"lineno" <;> simp [Ns.set, Ns.unline, h, hk]
    · by_cases h : k = c!"lineno"
      · rw [if_pos h] at ih ⊢
        have : k' ≠ c!"lineno" := fun e => hk (e.trans h.symm)
        simp only [Ns.set, Ns.unline, hk, if_false, List.map_cons, this] at ih ⊢
        rw [ih]
      · rw [if_neg h] at ih ⊢
        by_cases h' : k' = c!"lineno"
        · subst h'
          simp only [Ns.set, Ns.unline, hk, if_false, List.map_cons, if_true] at ih ⊢
          rw [ih]
        · simp only [Ns.set, Ns.unline, hk, if_false, List.map_cons, h'] at ih ⊢
          rw [ih]

theorem near_set {d d' : Ns} {k : Str} {v v' : Val} (h : Near d d') (hv : v = v') : Near (d.set k v) (d'.set k v') := by
  subst hv
  unfold Near at *
  rw [unline_set, unline_set, h]

theorem near_set_lineno {d d' : Ns} {v v' : Val} (h : Near d d') : Near (d.set c!"lineno" v) (d'.set c!"lineno" v') := by
  unfold Near at *
  rw [unline_set, unline_set, h]
  rfl

theorem near_setToObj {d d' : Ns} (ns : Ns) (h : Near d d') : Near (setToObj ns d) (setToObj ns d') := by
  unfold setToObj
  induction ns generalizing d d' with
  | nil => exact h
  | cons x t ih =>
    rw [List.foldl_cons, List.foldl_cons]
    apply ih
    by_cases hx : x.2 ≠ .none
    · rw [if_pos hx, if_pos hx]; exact near_set h rfl
    · rw [if_neg hx, if_neg hx]; exact h

theorem near_ite {c c' : Prop} [Decidable c] [Decidable c'] {a b a' b' : Ns} (hc : c = c') (ha : Near a a') (hb : Near b b') :
    Near (if c then a else b) (if c' then a' else b') := by
  subst hc
  split
  · simp [*]
  · simp [*]

/-! ## Lists of objects -/

/-- The lists differ only in line numbers. -/
def NearL (l l' : List Ns) : Prop := l.map Ns.unline = l'.map Ns.unline

theorem nearL_cons {x : Ns} {t l' : List Ns} (h : NearL (x :: t) l') : ∃ x' t', l' = x' :: t' ∧ Near x x' ∧ NearL t t' := by
  cases l' with
  | nil => simp [NearL] at h
  | cons x' t' =>
    simp only [NearL, List.map_cons, List.cons.injEq] at h
    exact ⟨x', t', rfl, h.1, h.2⟩

theorem nearL_any {l l' : List Ns} {f f' : Ns → Bool} (h : NearL l l') (hf : ∀ d d', Near d d' → f d = f' d') : l.any f = l'.any f' := by
  induction l generalizing l' with
  | nil =>
    cases l' with
    | nil => rfl
    | cons x t => simp [NearL] at h
  | cons x t ih =>
    obtain ⟨x', t', rfl, hx, ht⟩ := nearL_cons h
    rw [List.any_cons, List.any_cons, hf _ _ hx, ih ht]

theorem nearL_map {α : Type} {l l' : List Ns} {f : Ns → α} (h : NearL l l') (hf : ∀ d d', Near d d' → f d = f d') : l.map f = l'.map f := by
  induction l generalizing l' with
  | nil =>
    cases l' with
    | nil => rfl
    | cons x t => simp [NearL] at h
  | cons x t ih =>
    obtain ⟨x', t', rfl, hx, ht⟩ := nearL_cons h
    rw [List.map_cons, List.map_cons, hf _ _ hx, ih ht]

theorem nearL_append {l l' : List Ns} {d d' : Ns} (h : NearL l l') (hd : Near d d') : NearL (l ++ [d]) (l' ++ [d']) := by
  unfold NearL at *
  rw [List.map_append, List.map_append, h]
  simp only [List.map_cons, List.map_nil]
  rw [hd]

theorem nearL_modify {l l' : List Ns} {f f' : Ns → Ns} (h : NearL l l') (hf : ∀ d d', Near d d' → Near (f d) (f' d')) (n : Nat) :
    NearL (l.modify n f) (l'.modify n f') := by
  induction l generalizing l' n with
  | nil =>
    cases l' with
    | nil => simp [NearL]
    | cons x t => simp [NearL] at h
  | cons x t ih =>
    obtain ⟨x', t', rfl, hx, ht⟩ := nearL_cons h
    cases n with
    | zero =>
      simp only [List.modify_zero_cons, NearL, List.map_cons]
      rw [show (f x).unline = _ from hf _ _ hx, show t.map Ns.unline = _ from ht]
    | succ n =>
      simp only [List.modify_succ_cons, NearL, List.map_cons]
      rw [show x.unline = _ from hx, show (t.modify n f).map Ns.unline = _ from ih ht n]

/-! ## Objects -/

/-- A command object without line numbers. -/
def Inst.unline (i : Inst CState) : Inst CState :=
  { i with lineno := 0, attrs := { i.attrs with data := i.attrs.data.map Ns.unline } }

/-- The objects differ only in line numbers. -/
def NearI (i i' : Inst CState) : Prop := i.unline = i'.unline

theorem nearI_iff {i i' : Inst CState} : NearI i i' ↔
    i.currentCmd = i'.currentCmd ∧ i.currentLine = i'.currentLine ∧ i.seen = i'.seen ∧ i.attrs.attrs = i'.attrs.attrs ∧
      NearL i.attrs.data i'.attrs.data ∧ i.attrs.warned = i'.attrs.warned := by
  obtain ⟨a, b, c, d, ⟨e, f, g⟩⟩ := i
  obtain ⟨a', b', c', d', ⟨e', f', g'⟩⟩ := i'
  simp only [NearI, Inst.unline, Inst.mk.injEq, CState.mk.injEq, NearL, true_and]

theorem NearI.refl (i : Inst CState) : NearI i i := rfl

theorem NearI.selfOf {i i' : Inst CState} (h : NearI i i') : selfOf i = selfOf i' := by
  obtain ⟨-, -, h1, h2, -⟩ := nearI_iff.1 h
  simp only [Ks.selfOf, h1, h2]

/-! ## Programs -/

variable {α β γ δ : Type}

/-- Related values, or exceptions that differ only in the line number. -/
def ResRel (R : α → β → Prop) : Except Exc α → Except Exc β → Prop
  | .ok a, .ok b => R a b
  | .error e, .error f => e.noLine = f.noLine
  | _, _ => False

def M.Rel (R : α → β → Prop) (m : M α) (m' : M β) : Prop :=
  ∀ h i i', NearI i i' → NearI (m h i).1 (m' h i').1 ∧ ResRel R (m h i).2 (m' h i').2

/-- The same with equal values. -/
def M.Same (m : M α) : Prop := M.Rel Eq m m

theorem rel_bind {Q : α → β → Prop} {R : γ → δ → Prop} {m : M α} {m' : M β} {f : α → M γ} {f' : β → M δ}
    (hm : M.Rel Q m m') (hf : ∀ a b, Q a b → M.Rel R (f a) (f' b)) : M.Rel R (m >>= f) (m' >>= f') := by
  intro h i i' hi
  obtain ⟨h1, h2⟩ := hm h i i' hi
  simp only [bind]
  match hx : m h i, hy : m' h i' with
  | (j, .error e), (j', .error e') => rw [hx, hy] at h1 h2; exact ⟨h1, h2⟩
  | (j, .ok a), (j', .ok b) => rw [hx, hy] at h1 h2; exact hf a b h2 h j j' h1
  | (j, .error e), (j', .ok b) => rw [hx, hy] at h2; exact h2.elim
  | (j, .ok a), (j', .error e) => rw [hx, hy] at h2; exact h2.elim

theorem rel_bind_same {R : γ → δ → Prop} {m : M α} {f : α → M γ} {f' : α → M δ} (hm : M.Same m) (hf : ∀ a, M.Rel R (f a) (f' a)) :
    M.Rel R (m >>= f) (m >>= f') :=
  rel_bind hm fun a _ e => e ▸ hf a

theorem rel_bind_unit {R : γ → δ → Prop} {m m' : M Unit} {f : Unit → M γ} {f' : Unit → M δ} (hm : M.Rel Eq m m') (hf : M.Rel R (f ()) (f' ())) :
    M.Rel R (m >>= f) (m' >>= f') :=
  rel_bind hm fun _ _ _ => hf

theorem rel_pure {R : α → β → Prop} {a : α} {b : β} (h : R a b) : M.Rel R (pure a) (pure b) := fun _ _ _ hi => ⟨hi, h⟩

theorem same_pure {x : α} : M.Same (pure x) := rel_pure rfl

theorem same_bind {m : M α} {f : α → M β} (hm : M.Same m) (hf : ∀ a, M.Same (f a)) : M.Same (m >>= f) :=
  rel_bind_same hm hf

theorem same_self : M.Same M.self := fun _ _ _ hi => ⟨hi, hi.selfOf⟩
theorem same_currentCmd : M.Same M.currentCmd := fun _ _ _ hi => ⟨hi, (nearI_iff.1 hi).1⟩
theorem same_currentLine : M.Same M.currentLine := fun _ _ _ hi => ⟨hi, (nearI_iff.1 hi).2.1⟩
theorem same_throw {e : Exc} : M.Same (M.throw e : M α) := fun _ _ _ hi => ⟨hi, rfl⟩
theorem same_err {msg : Str} : M.Same (M.err msg : M α) := fun _ _ _ hi => ⟨hi, rfl⟩

theorem same_warn {w : Warn} : M.Same (M.warn w) := by
  intro h i i' hi
  refine ⟨?_, rfl⟩
  obtain ⟨h1, h2, h3, h4, h5, h6⟩ := nearI_iff.1 hi
  exact nearI_iff.2 ⟨h1, h2, h3, h4, h5, by simp only [M.warn, h6]⟩

theorem same_set {k : Str} {v : Val} : M.Same (M.set k v) := by
  intro h i i' hi
  refine ⟨?_, rfl⟩
  obtain ⟨h1, h2, h3, h4, h5, h6⟩ := nearI_iff.1 hi
  exact nearI_iff.2 ⟨h1, h2, h3, by simp only [M.set, h4], h5, h6⟩

theorem same_setToSelf {ns : Ns} : M.Same (M.setToSelf ns) := by
  intro h i i' hi
  refine ⟨?_, rfl⟩
  obtain ⟨h1, h2, h3, h4, h5, h6⟩ := nearI_iff.1 hi
  exact nearI_iff.2 ⟨h1, h2, h3, by simp only [M.setToSelf, h4], h5, h6⟩

theorem same_del {k : Str} : M.Same (M.del k) := by
  intro h i i' hi
  refine ⟨?_, rfl⟩
  obtain ⟨h1, h2, h3, h4, h5, h6⟩ := nearI_iff.1 hi
  exact nearI_iff.2 ⟨h1, h2, h3, by simp only [M.del, h4], h5, h6⟩

theorem rel_setData {l l' : List Ns} (h : NearL l l') : M.Rel Eq (M.setData l) (M.setData l') := by
  intro s i i' hi
  refine ⟨?_, rfl⟩
  obtain ⟨h1, h2, h3, h4, h5, h6⟩ := nearI_iff.1 hi
  exact nearI_iff.2 ⟨h1, h2, h3, h4, h, h6⟩

theorem resRel_lsame {x y : Except Exc α} (h : SameUpToLine x y) : ResRel Eq x y := by
  rcases h.cases with ⟨a, rfl, rfl⟩ | ⟨e, f, rfl, rfl, he⟩
  · exact rfl
  · exact he

theorem same_lift {x : Except Exc α} : M.Same (M.lift x) := fun _ _ _ hi => ⟨hi, resRel_lsame (.refl x)⟩

theorem rel_lift {x y : Except Exc α} (h : x = y) : M.Rel Eq (M.lift x) (M.lift y) := by
  subst h
  exact same_lift

theorem same_parseKnown {op : OptParser} {args : List Str} : M.Same (M.parseKnown op args) := by
  intro h i i' hi
  obtain ⟨h1, h2, h3, h4, h5, h6⟩ := nearI_iff.1 hi
  refine ⟨nearI_iff.2 ⟨h1, h2, h3, h4, h5, ?_⟩, resRel_lsame (parseKnown_lsame _ _ op args)⟩
  simp only [M.parseKnown, h6]
  rw [warnings_lsame _ (some i'.lineno)]

theorem same_parseArgs {op : OptParser} {args : List Str} : M.Same (M.parseArgs op args) := by
  intro h i i' hi
  obtain ⟨h1, h2, h3, h4, h5, h6⟩ := nearI_iff.1 hi
  refine ⟨nearI_iff.2 ⟨h1, h2, h3, h4, h5, ?_⟩, resRel_lsame (parseArgs_lsame _ _ op args)⟩
  simp only [M.parseArgs, h6]
  rw [warnings_lsame _ (some i'.lineno)]

theorem same_seenCmd {a : Str} : M.Same (M.seenCmd a) := by
  intro h i i' hi
  unfold M.seenCmd
  split <;> exact ⟨hi, rfl⟩

theorem same_usedCmd {a : Str} : M.Same (M.usedCmd a) := fun _ _ _ hi => ⟨hi, rfl⟩
theorem same_hasCmd {a : Str} : M.Same (M.hasCmd a) := fun _ _ _ hi => ⟨hi, rfl⟩

theorem rel_ite {R : α → β → Prop} {c c' : Prop} [Decidable c] [Decidable c'] {a b : M α} {a' b' : M β} (hc : c = c') (ha : M.Rel R a a')
    (hb : M.Rel R b b') : M.Rel R (if c then a else b) (if c' then a' else b') := by
  subst hc
  split
  · simp [*]
  · simp [*]

theorem rel_failIf {c c' : Bool} {msg : Str} (hc : c = c') : M.Rel Eq (M.failIf c msg) (M.failIf c' msg) := by
  subst hc
  unfold M.failIf
  cases c
  · exact same_pure
  · exact same_err

theorem same_failIf {c : Bool} {msg : Str} : M.Same (M.failIf c msg) := rel_failIf rfl

theorem rel_failIfNoLine {c c' : Bool} {msg : Str} (hc : c = c') : M.Rel Eq (M.failIfNoLine c msg) (M.failIfNoLine c' msg) := by
  subst hc
  unfold M.failIfNoLine
  cases c
  · exact same_pure
  · exact same_throw

theorem same_failIfNoLine {c : Bool} {msg : Str} : M.Same (M.failIfNoLine c msg) := rel_failIfNoLine rfl

theorem same_assert {c : Bool} : M.Same (M.assert c) := by
  unfold M.assert
  cases c
  · exact same_throw
  · exact same_pure

theorem rel_when {c c' : Bool} {m m' : M Unit} (hc : c = c') (hm : M.Rel Eq m m') : M.Rel Eq (M.when c m) (M.when c' m') := by
  subst hc
  unfold M.when
  cases c
  · exact same_pure
  · exact hm

theorem same_when {c : Bool} {m : M Unit} (hm : M.Same m) : M.Same (M.when c m) := rel_when rfl hm

theorem same_failIfM {c : M Bool} {msg : Str} (hc : M.Same c) : M.Same (M.failIfM c msg) := by
  unfold M.failIfM
  exact same_bind hc fun _ => same_failIf

theorem same_cond {c : M Bool} {m n : M α} (hc : M.Same c) (hm : M.Same m) (hn : M.Same n) : M.Same (M.cond c m n) := by
  unfold M.cond
  exact same_bind hc fun b => by cases b <;> assumption

theorem rel_bind_lineno {R : γ → δ → Prop} {f : Nat → M γ} {f' : Nat → M δ} (hf : ∀ n n', M.Rel R (f n) (f' n')) :
    M.Rel R (M.lineno >>= f) (M.lineno >>= f') :=
  rel_bind (Q := fun _ _ => True) (fun _ _ _ hi => ⟨hi, trivial⟩) fun n n' _ => hf n n'

theorem rel_bind_dataList {R : γ → δ → Prop} {f : List Ns → M γ} {f' : List Ns → M δ} (hf : ∀ l l', NearL l l' → M.Rel R (f l) (f' l')) :
    M.Rel R (M.dataList >>= f) (M.dataList >>= f') :=
  rel_bind (Q := NearL) (fun _ _ _ hi => ⟨hi, (nearI_iff.1 hi).2.2.2.2.1⟩) hf

/-- A step that returns related objects. -/
theorem rel_bind_near {R : γ → δ → Prop} {m : M Ns} {f : Ns → M γ} {f' : Ns → M δ} (hm : M.Rel Near m m)
    (hf : ∀ d d', Near d d' → M.Rel R (f d) (f' d')) : M.Rel R (m >>= f) (m >>= f') :=
  rel_bind hm hf

theorem rel_bind_lift {R : γ → δ → Prop} {x y : Except Exc α} {f : α → M γ} {f' : α → M δ} (hx : x = y) (hf : ∀ a, M.Rel R (f a) (f' a)) :
    M.Rel R (M.lift x >>= f) (M.lift y >>= f') :=
  rel_bind (rel_lift hx) fun a _ e => e ▸ hf a

theorem M.Same.rel {m : M α} (h : M.Same m) : M.Rel Eq m m := h

/-! ## Data classes -/

/-- The comparison and the text of the objects do not look at the line number. -/
structure DataCls.Blind (dc : DataCls) : Prop where
  eq : ∀ a a' b b', Near a a' → Near b b' → dc.eq a b = dc.eq a' b'
  str : ∀ a a', Near a a' → dc.str a = dc.str a'

/-- The condition does not look at the line number. -/
def Cond.blind : Cond → Bool
  | .tt => true
  | .tru k | .eq k _ | .gt k _ | .has k | .contains k _ | .shown k => k != c!"lineno"
  | .not c => c.blind
  | .and a b | .or a b => a.blind && b.blind

def Frag.blind : Frag → Bool
  | .lit _ => true
  | .fld k | .low k | .up k | .join _ k | .each _ k _ | .joinQ k | .esc k | .team k => k != c!"lineno"

def Out.blind (o : Out) : Bool := o.all fun x => x.1.blind && x.2.all Frag.blind

theorem Cond.eval_near {d d' : Ns} (h : Near d d') {c : Cond} (hc : c.blind = true) : c.eval d = c.eval d' := by
  induction c with
  | tt => rfl
  | not c ih => simp only [Cond.eval, ih hc]
  | and a b iha ihb =>
    simp only [Cond.blind, Bool.and_eq_true] at hc
    simp only [Cond.eval, iha hc.1, ihb hc.2]
  | or a b iha ihb =>
    simp only [Cond.blind, Bool.and_eq_true] at hc
    simp only [Cond.eval, iha hc.1, ihb hc.2]
  | has k =>
    simp only [Cond.blind, bne_iff_ne] at hc
    simp only [Cond.eval, h.get hc]
  | _ =>
    simp only [Cond.blind, bne_iff_ne] at hc
    simp only [Cond.eval, h.getD hc]

theorem Frag.render_near {d d' : Ns} (h : Near d d') {f : Frag} (hf : f.blind = true) : f.render d = f.render d' := by
  cases f with
  | lit s => rfl
  | _ =>
    simp only [Frag.blind, bne_iff_ne] at hf
    simp only [Frag.render, h.getD hf]

theorem Out.render_near {d d' : Ns} (h : Near d d') {o : Out} (ho : o.blind = true) : o.render d = o.render d' := by
  unfold Out.render
  congr 1
  apply List.map_congr_left
  intro x hx
  have := List.all_eq_true.1 ho x hx
  simp only [Bool.and_eq_true] at this
  unfold pieceText
  rw [Cond.eval_near h this.1, List.map_congr_left fun f hf => Frag.render_near h (List.all_eq_true.1 this.2 f hf)]

theorem sameAttrs_near {keys : List Str} (hk : c!"lineno" ∉ keys) (a a' b b' : Ns) (ha : Near a a') (hb : Near b b') :
    sameAttrs keys a b = sameAttrs keys a' b' := by
  unfold sameAttrs
  rw [Bool.eq_iff_iff, List.all_eq_true, List.all_eq_true]
  constructor <;> intro h k hm <;> have hne : k ≠ c!"lineno" := fun e => hk (e ▸ hm)
  · rw [← ha.getD hne, ← hb.getD hne]; exact h k hm
  · rw [ha.getD hne, hb.getD hne]; exact h k hm

/-! ## Classes -/

/-- What a class does with the line number: it keeps it in the data objects and in the exceptions. -/
structure Command.Blind (c : Command) : Prop where
  parse : ∀ h args i i', NearI i i' → NearI (c.parse h args i).1 (c.parse h args i').1 ∧
    ResRel (fun x y => x.map Ns.unline = y.map Ns.unline) (c.parse h args i).2 (c.parse h args i').2
  list : ∀ i i', NearI i i' → c.hasList i = c.hasList i'
  add : ∀ d d' i i', Near d d' → NearI i i' → NearI (c.addData d i) (c.addData d' i')
  str : ∀ i i', NearI i i' → c.str i = c.str i'

variable {name : Str} {prio : Option Int} {init : Ns} {str : Ns → Str} {dc : DataCls}

theorem plain_blind {parse : List Str → M Unit} (h : ∀ args, M.Same (parse args)) : (plainCmd name prio init parse str).Blind where
  parse s args i i' hi := by
    obtain ⟨h1, h2⟩ := h args s i i' hi
    simp only [plainCmd]
    match hx : parse args s i, hy : parse args s i' with
    | (j, .error e), (j', .error e') => rw [hx, hy] at h1 h2; exact ⟨h1, h2⟩
    | (j, .ok a), (j', .ok b) => rw [hx, hy] at h1 h2; exact ⟨h1, rfl⟩
    | (j, .error e), (j', .ok b) => rw [hx, hy] at h2; exact h2.elim
    | (j, .ok a), (j', .error e) => rw [hx, hy] at h2; exact h2.elim
  list _ _ _ := rfl
  add _ _ _ _ _ hi := hi
  str i i' hi := by simp only [plainCmd, hi.selfOf]

theorem list_blind {parse : List Str → M Ns} {str : List Str → Str} (hd : dc.Blind) (h : ∀ args, M.Rel Near (parse args) (parse args)) :
    (listCmd name prio init dc parse str).Blind where
  parse s args i i' hi := by
    obtain ⟨h1, h2⟩ := h args s i i' hi
    simp only [listCmd]
    match hx : parse args s i, hy : parse args s i' with
    | (j, .error e), (j', .error e') => rw [hx, hy] at h1 h2; exact ⟨h1, h2⟩
    | (j, .ok a), (j', .ok b) =>
      rw [hx, hy] at h1 h2
      exact ⟨h1, congrArg some (show a.unline = b.unline from h2)⟩
    | (j, .error e), (j', .ok b) => rw [hx, hy] at h2; exact h2.elim
    | (j, .ok a), (j', .error e) => rw [hx, hy] at h2; exact h2.elim
  list _ _ _ := rfl
  add d d' i i' hd hi := by
    obtain ⟨h1, h2, h3, h4, h5, h6⟩ := nearI_iff.1 hi
    exact nearI_iff.2 ⟨h1, h2, h3, h4, nearL_append h5 hd, h6⟩
  str i i' hi := by
    simp only [listCmd]
    rw [nearL_map (nearI_iff.1 hi).2.2.2.2.1 hd.str]

theorem deprecated_blind : (deprecatedCmd name init).Blind := plain_blind fun _ => same_bind same_currentCmd fun _ => same_warn

theorem removed_blind : (removedCmd name init).Blind := plain_blind fun _ => same_bind same_currentCmd fun _ => same_err

/-! ## Tactics -/

macro "same_step" : tactic => `(tactic| first
  | with_reducible apply same_pure
  | with_reducible apply same_bind
  | with_reducible apply same_failIf
  | with_reducible apply same_when
  | with_reducible apply same_self | with_reducible apply same_set
  | with_reducible apply same_warn | with_reducible apply same_setToSelf | with_reducible apply same_err
  | with_reducible apply same_parseKnown | with_reducible apply same_parseArgs
  | with_reducible apply same_usedCmd | with_reducible apply same_seenCmd
  | with_reducible apply same_failIfM
  | with_reducible apply same_cond
  | with_reducible apply same_currentCmd | with_reducible apply same_currentLine | with_reducible apply same_del
  | with_reducible apply same_lift | with_reducible apply same_assert
  | with_reducible apply same_failIfNoLine | with_reducible apply same_throw
  | (intro _)
  | extract_lets
  | split)

attribute [irreducible] M.Same

/-- Equal conditions and related objects. -/
syntax "near_step" : tactic
macro_rules
  | `(tactic| near_step) => `(tactic| first
    | with_reducible exact rfl
    | assumption
    | with_reducible exact Near.refl _
    | with_reducible apply near_set_lineno
    | with_reducible apply near_set
    | with_reducible apply near_setToObj
    | with_reducible apply near_ite
    | (with_reducible apply Near.getD; rotate_left; decide)
    | (with_reducible apply nearL_any; assumption; intro _ _ _)
    | (with_reducible apply DataCls.Blind.eq; assumption)
    | (funext _)
    | (show _ = _; congr 1))

/-- Steps that do not depend on the line number at all. -/
macro "same_done" : tactic => `(tactic| first
  | with_reducible apply same_pure
  | with_reducible apply same_failIfM
  | with_reducible apply same_cond
  | with_reducible apply same_failIf
  | with_reducible apply same_warn | with_reducible apply same_err
  | with_reducible apply same_parseKnown | with_reducible apply same_parseArgs
  | with_reducible apply same_usedCmd | with_reducible apply same_seenCmd
  | with_reducible apply same_lift | with_reducible apply same_assert
  | with_reducible apply same_failIfNoLine | with_reducible apply same_throw)

/-- Steps of programs with data objects. -/
syntax "rel_step" : tactic
macro_rules
  | `(tactic| rel_step) => `(tactic| first
    | (with_reducible apply rel_bind_lineno; intro _ _)
    | (with_reducible apply rel_bind_dataList; intro _ _ _)
    | (with_reducible apply rel_bind_lift; rotate_left; intro _)
    | (with_reducible apply rel_bind_same; (focus (repeat' same_done)); intro _)
    | (with_reducible apply rel_bind_unit)
    | with_reducible apply rel_failIf
    | with_reducible apply rel_failIfNoLine
    | with_reducible apply rel_when
    | with_reducible apply rel_ite
    | with_reducible apply rel_pure
    | with_reducible apply M.Same.rel
    | same_done
    | near_step)

end Ks
