import Verif.Commands.NormalArgs
import Verif.Commands.NearLogic
/-!
# `parse` accepts the normal form of a line

`M.Sim R m m'`: whenever `m` succeeds, `m'` succeeds from any state of its object, if no command that
excludes others has been used, and the results are related by `R`.
-/
namespace Ks

/-! ## Objects -/

/-- The objects have equal attributes, except those in `X`. -/
def Alike (X : List Str) (d d' : Ns) : Prop := ∀ k, k ∉ X → d.get k = d'.get k

theorem Alike.refl (X : List Str) (d : Ns) : Alike X d d := fun _ _ => rfl

theorem Alike.getD {X : List Str} {d d' : Ns} (h : Alike X d d') {k : Str} (hk : k ∉ X) : d.getD k = d'.getD k := by
  unfold Ns.getD
  rw [h k hk]

theorem Alike.mono {X Y : List Str} {d d' : Ns} (h : Alike X d d') (hs : ∀ k ∈ X, k ∈ Y) : Alike Y d d' :=
  fun k hk => h k fun e => hk (hs k e)

theorem alike_set {X : List Str} {d d' : Ns} {k : Str} {v v' : Val} (h : Alike X d d') (hv : v = v') : Alike X (d.set k v) (d'.set k v') := by
  intro k' hk'
  rw [Ns.get_set, Ns.get_set, h k' hk', hv]

/-- An attribute that is set to equal values is no exception any more. -/
theorem alike_set_drop {X : List Str} {d d' : Ns} {k : Str} {v v' : Val} (h : Alike (k :: X) d d') (hv : v = v') : Alike X (d.set k v) (d'.set k v') := by
  intro k' hk'
  rw [Ns.get_set, Ns.get_set, hv]
  split
  · rfl
  · rename_i hne
    exact h k' (by simp only [List.mem_cons, not_or]; exact ⟨fun e => hne e.symm, hk'⟩)

theorem alike_set_in {X : List Str} {d d' : Ns} {k : Str} {v v' : Val} (h : Alike X d d') (hk : k ∈ X) : Alike X (d.set k v) (d'.set k v') := by
  intro k' hk'
  have hne : k ≠ k' := fun e => hk' (e ▸ hk)
  rw [Ns.get_set_ne _ _ hne, Ns.get_set_ne _ _ hne, h k' hk']

theorem alike_ite {X : List Str} {c c' : Prop} [Decidable c] [Decidable c'] {a b a' b' : Ns} (hc : c = c') (ha : Alike X a a') (hb : Alike X b b') :
    Alike X (if c then a else b) (if c' then a' else b') := by
  subst hc
  split
  · simp [*]
  · simp [*]

/-- The results of the option parser give alike objects. -/
def Twin (X : List Str) (init ns ns' : Ns) : Prop :=
  ns.keys.Nodup ∧ ns'.keys.Nodup ∧ Alike X (setToObj ns init) (setToObj ns' init)

theorem Twin.obj {X : List Str} {init ns ns' : Ns} (h : Twin X init ns ns') : Alike X (setToObj ns init) (setToObj ns' init) := h.2.2

/-- Attributes that the object does not have before are equal in the results. -/
theorem Twin.getD {X : List Str} {init ns ns' : Ns} (h : Twin X init ns ns') {k : Str} (hk : k ∉ X) (hi : init.get k = none) : ns.getD k = ns'.getD k := by
  obtain ⟨h1, h2, h3⟩ := h
  have e : ∀ n : Ns, n.keys.Nodup → n.getD k = ((setToObj n init).get k).getD .none := by
    intro n hn
    rw [C16_set_to_obj n init hn, hi, Ns.getD]
    cases n.get k with
    | none => rfl
    | some v => cases v <;> rfl
  rw [e ns h1, e ns' h2, h3 k hk]

/-- Options whose attributes are false at first are given in both or in none. -/
theorem Twin.truthy {X : List Str} {init ns ns' : Ns} (h : Twin X init ns ns') {k : Str} (hk : k ∉ X) (hi : (init.getD k).truthy = false) :
    (ns.getD k).truthy = (ns'.getD k).truthy := by
  obtain ⟨h1, h2, h3⟩ := h
  have e : ∀ n : Ns, n.keys.Nodup → (n.getD k).truthy = (((setToObj n init).get k).getD .none).truthy := by
    intro n hn
    rw [C16_set_to_obj n init hn, Ns.getD]
    rw [Ns.getD] at hi
    cases n.get k with
    | none => exact hi.symm
    | some v => cases v <;> first | rfl | exact hi.symm
  rw [e ns h1, e ns' h2, h3 k hk]

/-! ## Programs -/

/-- No command that excludes partitions is used. -/
def Clear (h : Str → Option Bool) : Prop := h c!"autopart" = some false ∧ h c!"mount" ≠ some true

variable {α β γ δ : Type}

def M.Sim (R : α → β → Prop) (m : M α) (m' : M β) : Prop :=
  ∀ h i a, (m h i).2 = .ok a → ∀ h' i', Clear h' → ∃ b, (m' h' i').2 = .ok b ∧ R a b

theorem sim_bind {Q : α → β → Prop} {R : γ → δ → Prop} {m : M α} {m' : M β} {f : α → M γ} {f' : β → M δ}
    (hm : M.Sim Q m m') (hf : ∀ a b, Q a b → M.Sim R (f a) (f' b)) : M.Sim R (m >>= f) (m' >>= f') := by
  intro h i a ha h' i' hc
  simp only [bind] at ha ⊢
  match hx : m h i with
  | (j, .error e) => rw [hx] at ha; cases ha
  | (j, .ok x) =>
    rw [hx] at ha
    obtain ⟨y, hy, hxy⟩ := hm h i x (by rw [hx]) h' i' hc
    match hx' : m' h' i' with
    | (j', .error e) => rw [hx'] at hy; cases hy
    | (j', .ok y') =>
      rw [hx'] at hy
      injection hy with hy
      subst hy
      exact hf x y' hxy h j a ha h' j' hc

theorem sim_pure {R : α → β → Prop} {a : α} {b : β} (h : R a b) : M.Sim R (pure a) (pure b) := by
  intro _ _ x hx _ _ _
  injection hx with hx
  subst hx
  exact ⟨b, rfl, h⟩

theorem sim_bind_unit {R : γ → δ → Prop} {m m' : M Unit} {f : Unit → M γ} {f' : Unit → M δ} (hm : M.Sim Eq m m') (hf : M.Sim R (f ()) (f' ())) :
    M.Sim R (m >>= f) (m' >>= f') :=
  sim_bind hm fun _ _ _ => hf

theorem sim_bind_lineno {R : γ → δ → Prop} {f : Nat → M γ} {f' : Nat → M δ} (hf : ∀ n n', M.Sim R (f n) (f' n')) :
    M.Sim R (M.lineno >>= f) (M.lineno >>= f') :=
  sim_bind (Q := fun _ _ => True) (fun _ _ _ _ _ i' _ => ⟨i'.lineno, rfl, trivial⟩) fun n n' _ => hf n n'

theorem sim_bind_dataList {R : γ → δ → Prop} {f : List Ns → M γ} {f' : List Ns → M δ} (hf : ∀ l l', M.Sim R (f l) (f' l')) :
    M.Sim R (M.dataList >>= f) (M.dataList >>= f') :=
  sim_bind (Q := fun _ _ => True) (fun _ _ _ _ _ i' _ => ⟨i'.attrs.data, rfl, trivial⟩) fun n n' _ => hf n n'

theorem sim_lift {x y : Except Exc α} (h : x = y) : M.Sim Eq (M.lift x) (M.lift y) := by
  subst h
  intro _ _ a ha _ _ _
  exact ⟨a, ha, rfl⟩

theorem sim_bind_lift {R : γ → δ → Prop} {x y : Except Exc α} {f : α → M γ} {f' : α → M δ} (hx : x = y) (hf : ∀ a, M.Sim R (f a) (f' a)) :
    M.Sim R (M.lift x >>= f) (M.lift y >>= f') :=
  sim_bind (sim_lift hx) fun a _ e => e ▸ hf a

/-- A warning is no obstacle. -/
theorem sim_when_warn {c c' : Bool} {w w' : Warn} : M.Sim Eq (M.when c (M.warn w)) (M.when c' (M.warn w')) := by
  intro _ _ _ _ h' i' _
  refine ⟨(), ?_, rfl⟩
  cases c' <;> rfl

theorem sim_failIf {c c' : Bool} {msg : Str} (hc : c = c') : M.Sim Eq (M.failIf c msg) (M.failIf c' msg) := by
  subst hc
  cases c with
  | false => exact sim_pure rfl
  | true => intro h i a ha; cases ha

theorem sim_assert {c c' : Bool} (hc : c = c') : M.Sim Eq (M.assert c) (M.assert c') := by
  subst hc
  cases c with
  | false => intro h i a ha; cases ha
  | true => exact sim_pure rfl

theorem sim_when {c c' : Bool} {m m' : M Unit} (hc : c = c') (hm : M.Sim Eq m m') : M.Sim Eq (M.when c m) (M.when c' m') := by
  subst hc
  cases c with
  | false => exact sim_pure rfl
  | true => exact hm

theorem sim_seen {msg : Str} : M.Sim Eq (M.failIfM (M.seenCmd c!"autopart") msg) (M.failIfM (M.seenCmd c!"autopart") msg) := by
  intro h i a ha h' i' hc
  refine ⟨(), ?_, rfl⟩
  simp only [M.failIfM, bind, M.seenCmd, hc.1]
  rfl

theorem sim_used {msg : Str} : M.Sim Eq (M.failIfM (M.usedCmd c!"mount") msg) (M.failIfM (M.usedCmd c!"mount") msg) := by
  intro h i a ha h' i' hc
  refine ⟨(), ?_, rfl⟩
  have : (h' c!"mount" == some true) = false := by simpa using hc.2
  simp only [M.failIfM, bind, M.usedCmd, this]
  rfl

theorem sim_err {R : α → β → Prop} {msg : Str} {m' : M β} : M.Sim R (M.err msg : M α) m' := by
  intro h i a ha; cases ha

/-! ## Option parsers -/

/-- The parser accepts `args'` if it accepts `args`, with twin results; `E` tells which words are left over. -/
def Follows (op : OptParser) (init : Ns) (X : List Str) (E : List Str → List Str) (args args' : List Str) : Prop :=
  ∀ l l' ns ex, op.parseKnown l args = .ok (ns, ex) → ∃ ns', op.parseKnown l' args' = .ok (ns', E ex) ∧ Twin X init ns ns'

/-- No words are left over. -/
def noWords (_ : List Str) : List Str := []

theorem noWords_nil : noWords [] = [] := rfl

variable {op : OptParser} {init : Ns} {X : List Str} {E : List Str → List Str} {args args' : List Str}

theorem sim_parseKnown (h : Follows op init X E args args') :
    M.Sim (fun r r' => Twin X init r.1 r'.1 ∧ r'.2 = E r.2) (M.parseKnown op args) (M.parseKnown op args') := by
  intro _ i a ha _ i' _
  obtain ⟨ns', h1, h2⟩ := h (some i.lineno) (some i'.lineno) a.1 a.2 ha
  exact ⟨(ns', E a.2), h1, h2, rfl⟩

theorem sim_parseArgs (h : Follows op init X E args args') (hE : E [] = []) : M.Sim (Twin X init) (M.parseArgs op args) (M.parseArgs op args') := by
  intro _ i a ha _ i' _
  have ha : op.parseArgs (some i.lineno) args = .ok a := ha
  unfold OptParser.parseArgs at ha
  split at ha
  · cases ha
  · rename_i ns ex hk
    split at ha
    · cases ha
    · rename_i hex
      injection ha with ha
      subst ha
      obtain ⟨ns', h1, h2⟩ := h (some i.lineno) (some i'.lineno) ns ex hk
      refine ⟨ns', ?_, h2⟩
      have hex' : ex = [] := by simpa using hex
      rw [hex', hE] at h1
      show op.parseArgs (some i'.lineno) args' = _
      unfold OptParser.parseArgs
      rw [h1]
      rfl

theorem sim_bind_known {R : γ → δ → Prop} {f : Ns × List Str → M γ} {f' : Ns × List Str → M δ} (h : Follows op init X E args args')
    (hf : ∀ ns ns' ex, Twin X init ns ns' → M.Sim R (f (ns, ex)) (f' (ns', E ex))) : M.Sim R (M.parseKnown op args >>= f) (M.parseKnown op args' >>= f') :=
  sim_bind (sim_parseKnown h) fun r r' hr => by
    obtain ⟨ns, ex⟩ := r
    obtain ⟨ns', ex'⟩ := r'
    obtain ⟨h1, h2⟩ := hr
    simp only at h1 h2
    subst h2
    exact hf ns ns' ex h1

theorem sim_bind_args {R : γ → δ → Prop} {f : Ns → M γ} {f' : Ns → M δ} (h : Follows op init X E args args') (hE : E [] = [])
    (hf : ∀ ns ns', Twin X init ns ns' → M.Sim R (f ns) (f' ns')) : M.Sim R (M.parseArgs op args >>= f) (M.parseArgs op args' >>= f') :=
  sim_bind (sim_parseArgs h hE) hf

/-- No words left over are no obstacle. -/
theorem sim_extra {ex : List Str} {msg : Str} : M.Sim Eq (M.failIf (!ex.isEmpty) msg) (M.failIf (!(noWords ex).isEmpty) msg) :=
  fun _ _ _ _ _ _ _ => ⟨(), rfl, rfl⟩

theorem sim_extra_length {ex : List Str} {msg : Str} : M.Sim Eq (M.failIf (decide (ex.length > 0)) msg) (M.failIf (decide ((noWords ex).length > 0)) msg) :=
  fun _ _ _ _ _ _ _ => ⟨(), rfl, rfl⟩

/-! ## Tactics -/

/-- Equal conditions and alike objects. -/
syntax "alike_step" : tactic
macro_rules
  | `(tactic| alike_step) => `(tactic| first
    | with_reducible exact rfl
    | assumption
    | (with_reducible apply Twin.obj; assumption)
    | (with_reducible apply alike_set_in; rotate_left; (focus (simp; done)))
    | with_reducible apply alike_set
    | with_reducible apply alike_ite
    | (with_reducible refine Alike.getD (by assumption) ?_; first | decide | (simp_all; done))
    | (with_reducible refine Alike.mono (Twin.obj (by assumption)) ?_; intro _ _; simp_all; done)
    | (with_reducible refine Alike.mono (by assumption) ?_; intro _ _; simp_all; done)
    | (funext _)
    | (show _ = _; congr 1))

syntax "sim_step" : tactic
macro_rules
  | `(tactic| sim_step) => `(tactic| first
    | (with_reducible apply sim_bind_lineno; intro _ _)
    | (with_reducible apply sim_bind_dataList; intro _ _)
    | (with_reducible apply sim_bind_known (by assumption); intro _ _ _ _; try dsimp only)
    | (with_reducible apply sim_bind_args (by assumption) noWords_nil; intro _ _ _; try dsimp only)
    | (with_reducible apply sim_bind_lift; rotate_left; intro _)
    | (with_reducible apply sim_bind_unit)
    | with_reducible apply sim_extra
    | with_reducible apply sim_extra_length
    | with_reducible apply sim_failIf
    | with_reducible apply sim_assert
    | with_reducible apply sim_when_warn
    | with_reducible apply sim_when
    | with_reducible apply sim_seen
    | with_reducible apply sim_used
    | with_reducible apply sim_pure
    | alike_step)

/-! ## What is written is accepted -/

/-- The text of the object holds everything in which the object differs from `base`; the attributes in
`need` are not empty, and those in `fixed` are as in `base`. -/
def Sheet.Lossless (s : Sheet) (need fixed : List Str) (base d : Ns) : Prop :=
  (∃ g ∈ s.given, g.eval d = true) ∧ (∀ k ∈ need, (d.getD k).truthy = true) ∧ (∀ k ∈ fixed, d.get k = base.get k) ∧
    ∀ k ∈ d.keys ++ base.keys, k ∉ s.skip → d.get k = base.get k ∨ (whenKept s.lossy k).eval d = true ∧ (k ∈ s.full ∨ (d.getD k).truthy = true)

instance (s : Sheet) (need fixed : List Str) (base d : Ns) : Decidable (s.Lossless need fixed base d) := by unfold Sheet.Lossless; infer_instance

theorem get_none_of_keys {d : Ns} {k : Str} (h : k ∉ d.keys) : d.get k = none := by
  cases hg : d.get k with
  | none => rfl
  | some v =>
    exact absurd (List.mem_map.2 ⟨(k, v), lookup_mem_pair (by rw [Ns.get] at hg; exact hg), rfl⟩) h

theorem Sheet.Lossless.all {s : Sheet} {need fixed : List Str} {base d : Ns} (h : s.Lossless need fixed base d) {k : Str} (hk : k ∉ s.skip) :
    d.get k = base.get k ∨ (whenKept s.lossy k).eval d = true ∧ (k ∈ s.full ∨ (d.getD k).truthy = true) := by
  by_cases hm : k ∈ d.keys ++ base.keys
  · exact h.2.2.2 k hm hk
  · simp only [List.mem_append, not_or] at hm
    left
    rw [get_none_of_keys hm.1, get_none_of_keys hm.2]

/-- The check of an option that has to be given. -/
def requiredOk (s : Sheet) (need : List Str) (op : OptParser) (init : Ns) (a : Action) : Bool :=
  !a.required || a.opts.isEmpty ||
    need.contains a.dest && !s.skip.contains a.dest && op.optDests.contains a.dest && whenKept s.lossy a.dest = .tt &&
      !((setToObj op.defaults init).getD a.dest).truthy && op.strings.all fun kv => kv.2.dest ≠ a.dest || kv.2.id = a.id

/-- The check of an option that is not read back. -/
def fixedOk (fixed : List Str) (op : OptParser) (init : Ns) (c : Cond) : SymArg → Bool
  | .pos _ => true
  | .opt n _ => match op.lookup n with
    | none => true
    | some a => !fixed.contains a.dest || !c.admits a.dest ((setToObj op.defaults init).get a.dest)

/-- The check of a template: `ps` are the words after the name of the command, which are for the attributes `M`; the
attributes in `X` need not be read back. -/
def normalCheck (s : Sheet) (need fixed X M : List Str) (op : OptParser) (init : Ns) (ps : List (List Sym)) (o : Out) : Bool :=
  op.closed M && M.all (fun k => !op.optDests.contains k) &&
  op.optDests.all (fun k => !s.skip.contains k || X.contains k || fixed.contains k) && op.actions.all (requiredOk s need op init) &&
  op.actions.all (fun b => !fixed.contains b.dest || !b.opts.isEmpty && (!b.default.isStr || b.ty = .str)) &&
  match outArgs o with
  | none => false
  | some l => (decide (firstWords l = some ps) || ps.isEmpty && soleName l) && l.all fun x => x.2.all (fixedOk fixed op init x.1)

/-- The parser takes the words `ws`, before any options. -/
def Takes (op : OptParser) (M ws : List Str) (ns : Ns) (ex' : List Str) : Prop :=
  (∀ w ∈ ws, startsWith w c!"-" = false) → ∀ l' ts, (∀ t ∈ ts, t.Fits op) → (∀ t ∈ ts, ∃ a v, op.lookup t.name = some a ∧ getValues l' a t.val.toList = .ok v) →
    (∀ a ∈ op.actions, a.required = true → a.opts ≠ [] → a.id ∈ tokIds op ts) → (∀ t ∈ ts, ∀ b, op.lookup t.name = some b → b.dest ∉ M) →
      ∃ ns', op.parseKnown l' (ws ++ ts.map Tok.text) = .ok (ns', ex') ∧ ∀ k ∈ M, ns'.get k = ns.get k

/-- Every option that is written and that is not read back is accepted. -/
def SkipOk (s : Sheet) (fixed : List Str) (op : OptParser) (o : Out) (d : Ns) : Prop :=
  ∀ l, outArgs o = some l → ∀ x ∈ l, x.1.eval d = true → ∀ n v, SymArg.opt n v ∈ x.2 → ∀ a, op.lookup n = some a → a.dest ∈ s.skip → a.dest ∉ fixed →
    ∀ l', ∃ v', getValues l' a (v.map (wordOf d)).toList = .ok v'

theorem normal_obj {s : Sheet} {need fixed M T : List Str} {ps : List (List Sym)} {o : Out} {ns d : Ns} {ex ex' : List Str} {n : Nat}
    (hc : s.check op init o = true) (hn : normalCheck s need fixed X M op init ps o = true)
    (h1 : op.parseKnown (some (n : Int)) args = .ok (ns, ex)) (hd : ∀ k, k ∉ T → d.get k = (setToObj ns init).get k) (hT : ∀ k ∈ T, k ∈ s.skip)
    (hTf : ∀ k ∈ fixed, k ∉ T) (hp : s.Plain d) (hL : s.Lossless need fixed (setToObj op.defaults init) d) (hskip : SkipOk s fixed op o d)
    (htakes : Takes op M (ps.map (wordOf d)) ns ex') :
    ∃ name ∈ s.names, ∃ args', shlexSplit (o.render d) true = .ok (name :: args') ∧ ∀ l', ∃ ns', op.parseKnown l' args' = .ok (ns', ex') ∧ Twin X init ns ns' := by
  have hPB : ParsedBy op init s.skip n args d := ⟨ns, ex, h1, fun k hk => hd k fun e => hk (hT k e)⟩
  obtain ⟨words, hw, hwords⟩ := readsBack_obj hc hPB hp
  rcases hwords with ⟨rfl, hg⟩ | ⟨name, hname, args', rfl, hback⟩
  · obtain ⟨g, hgm, hge⟩ := hL.1
    rw [hg g hgm] at hge
    cases hge
  refine ⟨name, hname, args', hw, fun l' => ?_⟩
  -- what is written
  have hc' := hc
  unfold Sheet.check at hc'
  simp only [Bool.and_eq_true, decide_eq_true_eq] at hc'
  obtain ⟨⟨⟨⟨-, hrt⟩, -⟩, hpl⟩, wf⟩ := hc'
  obtain ⟨hsafe, hdash⟩ := plain_safe hpl hp.1 hp.2.1
  unfold normalCheck at hn
  unfold rtCheck at hrt
  unfold DashFree at hdash
  cases hl : outArgs o with
  | none => rw [hl] at hrt; cases hrt
  | some l =>
  have hskip := hskip l hl
  rw [hl] at hn hrt hdash
  simp only [Bool.and_eq_true, List.all_eq_true, Bool.or_eq_true, Bool.not_eq_true', List.contains_eq_mem, decide_eq_true_eq, decide_eq_false_iff_not] at hn hrt hdash
  obtain ⟨⟨htok, hkept⟩, hhead⟩ := hrt
  obtain ⟨⟨⟨⟨⟨hcl, hM⟩, hX⟩, hreq⟩, hfd⟩, hfw, hfix⟩ := hn
  unfold outArgs at hl
  cases hlw : outWords [] o with
  | none => rw [hlw] at hl; cases hl
  | some lw =>
  rw [hlw] at hl
  simp only at hl
  have hw' := template_words hlw hsafe
  rw [symArgs_sound hl, hw] at hw'
  injection hw' with hw'
  rcases head_sound hhead (d := d) (by simp) with h0 | ⟨nm, hnm, w, rest, h0, hwn⟩
  · rw [h0] at hw'; cases hw'
  rw [h0, List.map_cons] at hw'
  injection hw' with hw1 hw2
  obtain ⟨os, hos⟩ : ∃ os : List (Str × Option (List Sym)), rest = ps.map .pos ++ os.map fun x => .opt x.1 x.2 := by
    rcases hfw with hfw | ⟨hps, hfw⟩
    · exact firstWords_sound hfw h0
    · obtain ⟨os, hos⟩ := soleName_sound hfw h0
      rw [List.isEmpty_iff] at hps
      subst hps
      exact ⟨os, hos⟩
  have hmem : ∀ x ∈ os, ∃ y ∈ l, y.1.eval d = true ∧ SymArg.opt x.1 x.2 ∈ y.2 := by
    intro x hx
    have : SymArg.opt x.1 x.2 ∈ firedArgs d l := by
      rw [h0, hos]
      refine List.mem_cons_of_mem _ (List.mem_append_right _ (List.mem_map.2 ⟨x, hx, rfl⟩))
    obtain ⟨y, hy, hye, hyx⟩ := mem_firedArgs.1 this
    exact ⟨y, hy, hye, hyx⟩
  have htok' : ∀ x ∈ os, ∃ a, op.lookup x.1 = some a ∧ (MixArg.tok ⟨x.1, x.2.map (wordOf d)⟩).Ok op ∧
      (a.dest ∉ s.skip → ∀ l, d.get a.dest ≠ some .none ∧ ∃ v, getValues l a (x.2.map (wordOf d)).toList = .ok v ∧ ∀ old, some (actVal a v old) = d.get a.dest) := by
    intro x hx
    obtain ⟨y, hy, hye, hyx⟩ := hmem x hx
    exact tok_sound hPB.parsed (plain_dev hp.1) (htok y hy _ hyx) hye
  have hnofix : ∀ x ∈ os, ∀ a, op.lookup x.1 = some a → a.dest ∉ fixed := by
    intro x hx a ha hf
    obtain ⟨y, hy, hye, hyx⟩ := hmem x hx
    have := hfix y hy _ hyx
    simp only [fixedOk, ha, List.contains_eq_mem, hf, decide_true, Bool.not_true, Bool.false_or, Bool.not_eq_true'] at this
    rw [← hL.2.2.1 _ hf, admits_of_eval hye] at this
    cases this
  -- the words and the options
  have hargs : args' = ps.map (wordOf d) ++ (os.map fun x => (⟨x.1, x.2.map (wordOf d)⟩ : Tok)).map Tok.text := by
    rw [hw2, hos]
    simp only [List.map_append, List.map_map]
    rfl
  have hdw : ∀ w ∈ ps.map (wordOf d), startsWith w c!"-" = false := by
    intro w' hw'
    obtain ⟨sy, hsy, rfl⟩ := List.mem_map.1 hw'
    exact hdash (.pos sy) (by rw [h0, hos]; exact List.mem_cons_of_mem _ (List.mem_append_left _ (List.mem_map.2 ⟨sy, hsy, rfl⟩)))
  obtain ⟨ns', h2, h2M⟩ := htakes hdw l' (os.map fun x => (⟨x.1, x.2.map (wordOf d)⟩ : Tok)) (by
      intro t ht
      obtain ⟨x, hx, rfl⟩ := List.mem_map.1 ht
      obtain ⟨a, -, hok, -⟩ := htok' x hx
      exact MixArg.Ok.fits hok) (by
      intro t ht
      obtain ⟨x, hx, rfl⟩ := List.mem_map.1 ht
      obtain ⟨a, ha, -, hv⟩ := htok' x hx
      by_cases hs : a.dest ∈ s.skip
      · obtain ⟨y, hy, hye, hyx⟩ := hmem x hx
        obtain ⟨v', hv'⟩ := hskip y hy hye x.1 x.2 hyx a ha hs (hnofix x hx a ha) l'
        exact ⟨a, v', ha, hv'⟩
      · obtain ⟨-, v, hv, -⟩ := hv hs l'
        exact ⟨a, v, ha, hv⟩) (by
      intro a ha hr ho
      have := hreq a ha
      simp only [requiredOk, hr, Bool.not_true, Bool.false_or, Bool.or_eq_true, List.isEmpty_iff, ho, false_or, Bool.and_eq_true, Bool.not_eq_true',
        List.contains_eq_mem, decide_eq_true_eq, decide_eq_false_iff_not, List.all_eq_true] at this
      obtain ⟨⟨⟨⟨⟨hnd, hsk⟩, hod⟩, hwk⟩, hbf⟩, hids⟩ := this
      have htr := hL.2.1 _ hnd
      rcases hkept _ hod with h | ⟨hnice, hkp⟩
      · exact absurd h hsk
      rcases kept_sound hPB.parsed hsk hnice hkp (by rw [h0]; simp) (by rw [hwk]; rfl) (.inr htr) with h | ⟨sa, hsa, hwr⟩
      · exfalso
        unfold Ns.getD at htr hbf
        rw [h, hbf] at htr
        cases htr
      · rw [h0, hos] at hsa
        rcases List.mem_cons.1 hsa with rfl | hsa
        · cases hwr
        rcases List.mem_append.1 hsa with hsa | hsa
        · obtain ⟨sy, -, rfl⟩ := List.mem_map.1 hsa
          cases hwr
        · obtain ⟨x, hx, rfl⟩ := List.mem_map.1 hsa
          unfold writes at hwr
          simp only at hwr
          split at hwr
          · rename_i b hb
            simp only [decide_eq_true_eq] at hwr
            have hid : b.id = a.id := by
              obtain ⟨m, hm⟩ : ∃ m, (m, b) ∈ op.strings := ⟨_, lookup_mem_pair hb⟩
              rcases hids _ hm with h | h
              · exact absurd hwr (by simpa using h)
              · simpa using h
            unfold tokIds
            refine List.mem_filterMap.2 ⟨_, List.mem_map.2 ⟨x, hx, rfl⟩, ?_⟩
            simp [hb, hid]
          · cases hwr) (by
      intro t ht b hb hbM
      obtain ⟨x, hx, rfl⟩ := List.mem_map.1 ht
      have := hM _ hbM
      apply this
      obtain ⟨m, hm⟩ : ∃ m, (m, b) ∈ op.strings := ⟨_, lookup_mem_pair hb⟩
      exact List.mem_map.2 ⟨b, List.mem_map.2 ⟨_, hm, rfl⟩, rfl⟩)
  rw [← hargs] at h2
  have hnd := C16_known_keys _ _ _ _ _ h1
  have hnd' := C16_known_keys _ _ _ _ _ h2
  refine ⟨ns', h2, hnd, hnd', fun k hk => ?_⟩
  by_cases hkM : k ∈ M
  · rw [C16_set_to_obj _ _ hnd, C16_set_to_obj _ _ hnd', h2M k hkM]
  by_cases hko : k ∈ op.optDests
  · by_cases hks : k ∈ s.skip
    · have hkf : k ∈ fixed := by
        rcases hX k hko with (h | h) | h
        · exact absurd hks h
        · exact absurd h hk
        · exact h
      rw [← hd k (hTf k hkf), hL.2.2.1 k hkf]
      have hargs2 : args' = (ps.map fun w => MixArg.pos (wordOf d w)).map MixArg.text ++ (os.map fun x => MixArg.tok ⟨x.1, x.2.map (wordOf d)⟩).map MixArg.text := by
        rw [hargs]
        simp only [List.map_map]
        rfl
      rw [← List.map_append] at hargs2
      have h2' := h2
      rw [hargs2] at h2'
      obtain ⟨hrun, -⟩ := parseKnown_mixed wf (d := k) (by
          intro x hx
          rcases List.mem_append.1 hx with hx | hx
          · obtain ⟨sy, hsy, rfl⟩ := List.mem_map.1 hx
            exact hdw _ (List.mem_map.2 ⟨sy, hsy, rfl⟩)
          · obtain ⟨y, hy, rfl⟩ := List.mem_map.1 hx
            obtain ⟨a, -, hok, -⟩ := htok' y hy
            exact hok) (fun b hb e => by
          rcases hfd b hb with h | h
          · rw [e] at h; exact absurd hkf h
          · simpa using h) h2'
      have hz := (runKey_const (p := op) (lineno := l') (k := k) (x := op.defaults.get k) (ts := mixToks ((ps.map fun w => MixArg.pos (wordOf d w)) ++
          os.map fun x => MixArg.tok ⟨x.1, x.2.map (wordOf d)⟩)) (o := op.defaults.get k) (by
        intro t ht a ha hak
        exfalso
        rcases List.mem_append.1 (mem_mixToks.1 ht) with hx | hx
        · obtain ⟨sy, hsy, e⟩ := List.mem_map.1 hx
          cases e
        · obtain ⟨y, hy, e⟩ := List.mem_map.1 hx
          injection e with e
          subst e
          exact hnofix y hy a ha (by rw [hak]; exact hkf))).2 (.inr rfl)
      rw [hz] at hrun
      rw [C16_set_to_obj _ _ hnd', C16_set_to_obj _ _ (defaults_nodup op), hrun]
    · have hb : (setToObj ns' init).get k = d.get k := by
        have h3 : op.parseKnown (some ((0 : Nat) : Int)) args' = .ok (ns', ex') := by
          rcases (parseKnown_lsame l' (some ((0 : Nat) : Int)) op args').cases with ⟨x, g1, g2⟩ | ⟨e, f, g1, -, -⟩
          · rw [g1] at h2; injection h2 with h2; rw [g2, h2]
          · rw [g1] at h2; cases h2
        obtain ⟨e1, e2⟩ := hback 0 (setToObj ns' init) ⟨ns', ex', h3, fun _ _ => rfl⟩ k hks
        rcases hL.all hks with h | ⟨h, h'⟩
        · rcases e1 with e1 | e1
          · exact e1
          · rw [e1, h]
        · exact e2 h h'
      rw [hb, hd k fun e => hks (hT k e)]
  · have hother := not_dest hcl hko hkM
    rw [C16_set_to_obj _ _ hnd, C16_set_to_obj _ _ hnd', get_other hother h1, get_other hother h2]

/-- Options alone, after words that are left over. -/
theorem takes_opts (wf : op.WF) (hp : op.initSt.positionals = []) (hdf : op.plainDefaults = true) (hreq : ∀ a ∈ op.actions, a.required = true → a.opts ≠ []) (ws : List Str)
    (ns : Ns) : Takes op [] ws ns ws := by
  intro hdw l' ts h1 h2 h3 _
  obtain ⟨ns', h⟩ := known_opts wf hp hdf hdw h1 h2 fun a ha hr => h3 a ha hr (hreq a ha hr)
  exact ⟨ns', h, fun k hk => by cases hk⟩

/-! ## Command classes -/

/-- The text of an object that `parse` made from a line is a line.  `parse` accepts it in any state in which no other
command excludes this one, and gives an object with the same attributes, except for the line number. -/
def Command.Normal (c : Command) (s : Sheet) (need fixed : List Str) (base : Ns) : Prop :=
  ∀ h args i d, (c.parse h args i).2 = .ok (some d) → s.Plain d → s.Lossless need fixed base d →
    ∃ name ∈ s.names, ∃ args', shlexSplit (c.str { attrs := { data := [d] } }) true = .ok (name :: args') ∧
      ∀ h' i', Clear h' → ∃ d', (c.parse h' args' i').2 = .ok (some d') ∧ Alike [c!"lineno"] d d'

/-- Option strings that are not read back take no value. -/
def skipCheck (s : Sheet) (fixed : List Str) (op : OptParser) (o : Out) : Bool :=
  match outArgs o with
  | none => true
  | some l => l.all fun x => x.2.all fun a => match a with
    | .pos _ => true
    | .opt n v => match op.lookup n with
      | none => true
      | some a => !s.skip.contains a.dest || fixed.contains a.dest || v.isNone && a.nargs = .n 0

theorem skip_ok {s : Sheet} {fixed : List Str} {o : Out} (h : skipCheck s fixed op o = true) (d : Ns) : SkipOk s fixed op o d := by
  intro l hl x hx _ n v hv a ha hs hf l'
  unfold skipCheck at h
  rw [hl] at h
  have := List.all_eq_true.1 (List.all_eq_true.1 h x hx) _ hv
  simp only [ha, List.contains_eq_mem, hs, hf, decide_true, decide_false, Bool.not_true, Bool.false_or, Bool.and_eq_true, Option.isNone_iff_eq_none, decide_eq_true_eq] at this
  obtain ⟨rfl, hn⟩ := this
  refine ⟨.list [], ?_⟩
  simp only [Option.map_none, Option.toList_none, getValues, hn]
  by_cases ho : a.opts = []
  · rw [if_pos ho]; rfl
  · rw [if_neg ho]; rfl

theorem list_accepts {name : Str} {prio : Option Int} {cinit : Ns} {dc : DataCls} {parse : List Str → M Ns} {str : List Str → Str} {h : Str → Option Bool} {i : Inst CState} {d : Ns}
    (hd : (parse args h i).2 = .ok d) : ((listCmd name prio cinit dc parse str).parse h args i).2 = .ok (some d) := by
  change (match parse args h i with | (i, .error e) => (i, .error e) | (i, .ok d) => (i, .ok (some d)) : Inst CState × Except Exc (Option Ns)).2 = _
  match hp : parse args h i with
  | (j, .error e) => rw [hp] at hd; cases hd
  | (j, .ok d') => rw [hp] at hd; cases hd; rfl

/-- The words of the text of one object. -/
theorem list_text {name : Str} {prio : Option Int} {cinit : Ns} {dc : DataCls} {parse : List Str → M Ns} {str : List Str → Str} {o : Out} {d : Ns} {words : List Str}
    (hstr : ∀ d, dc.str d = o.render d) (hs : str = listStr ∨ ∃ hd, headingOk hd = true ∧ str = headedListStr hd) (h1 : shlexSplit (o.render d) true = .ok words) :
    shlexSplit ((listCmd name prio cinit dc parse str).str { attrs := { data := [d] } }) true = .ok words := by
  have : (listCmd name prio cinit dc parse str).str { attrs := { data := [d] } } = str [dc.str d] := rfl
  rw [this, hstr]
  rcases hs with rfl | ⟨hd, hok, rfl⟩
  · simpa [listStr] using h1
  · unfold headedListStr
    split
    · rename_i he
      simp only [List.flatten_cons, List.flatten_nil, List.append_nil, List.isEmpty_iff] at he
      rw [he] at h1
      exact h1
    · rw [lex_heading hok]
      simpa using h1

theorem list_normal {name : Str} {prio : Option Int} {cinit : Ns} {dc : DataCls} {parse : List Str → M Ns} {str : List Str → Str} {s : Sheet} {need fixed P T : List Str}
    {ps : List (List Sym)} {o : Out} {h : Str → Option Bool} {i : Inst CState} {d : Ns} {Y : List Str} (hP : ParsedBy op dc.init T i.lineno args d) (hstr : ∀ d, dc.str d = o.render d) (hs : str = listStr ∨ ∃ hd, headingOk hd = true ∧ str = headedListStr hd) (hc : s.check op dc.init o = true)
    (hn : normalCheck s need fixed X P op dc.init ps o = true) (hT : ∀ k ∈ T, k ∈ s.skip) (hTf : ∀ k ∈ fixed, k ∉ T)
    (hsim : ∀ args', Follows op dc.init X E args args' → M.Sim (Alike Y) (parse args) (parse args'))
    (hd : ((listCmd name prio cinit dc parse str).parse h args i).2 = .ok (some d)) (hskip : SkipOk s fixed op o d)
    (htakes : ∀ ns ex, op.parseKnown (some (i.lineno : Int)) args = .ok (ns, ex) → Takes op P (ps.map (wordOf d)) ns (E ex))
    (hp : s.Plain d) (hL : s.Lossless need fixed (setToObj op.defaults dc.init) d) :
    ∃ nm ∈ s.names, ∃ args', shlexSplit ((listCmd name prio cinit dc parse str).str { attrs := { data := [d] } }) true = .ok (nm :: args') ∧
      ∀ h' i', Clear h' → ∃ d', ((listCmd name prio cinit dc parse str).parse h' args' i').2 = .ok (some d') ∧ Alike Y d d' := by
  obtain ⟨d', e, hd'⟩ := list_value hd
  cases e
  obtain ⟨ns, ex, h1, h2⟩ := hP
  obtain ⟨nm, hnm, args', hw, hk⟩ := normal_obj hc hn h1 h2 hT hTf hp hL hskip (htakes ns ex h1)
  refine ⟨nm, hnm, args', list_text hstr hs hw, fun h' i' hcl => ?_⟩
  have hf : Follows op dc.init X E args args' := by
    intro l l' ns1 ex1 h3
    rcases (parseKnown_lsame l (some (i.lineno : Int)) op args).cases with ⟨x, g1, g2⟩ | ⟨e, f, g1, -, -⟩
    · rw [g1] at h3
      rw [h1] at g2
      injection h3 with h3
      injection g2 with g2
      rw [h3] at g2
      injection g2 with e1 e2
      subst e1 e2
      exact hk l'
    · rw [g1] at h3; cases h3
  obtain ⟨d2, hd2, ha⟩ := hsim args' hf h i d hd' h' i' hcl
  exact ⟨d2, list_accepts hd2, ha⟩

/-- The parser takes options only. -/
def optsOnly (op : OptParser) : Bool :=
  op.initSt.positionals.isEmpty && op.plainDefaults && op.actions.all fun a => !a.required || !a.opts.isEmpty

theorem takes_noWords (wf : op.WF) (h : optsOnly op = true) (ns : Ns) (ex : List Str) : Takes op [] [] ns (noWords ex) := by
  unfold optsOnly at h
  simp only [Bool.and_eq_true, List.isEmpty_iff, List.all_eq_true, Bool.or_eq_true, Bool.not_eq_true', List.isEmpty_eq_false_iff] at h
  refine takes_opts wf h.1.1 h.1.2 (fun a ha hr => ?_) [] ns
  rcases h.2 a ha with e | e
  · rw [hr] at e; cases e
  · exact e

theorem Sheet.check_wf {s : Sheet} {o : Out} (h : s.check op init o = true) : op.WF := by
  unfold Sheet.check at h
  simp only [Bool.and_eq_true, decide_eq_true_eq] at h
  exact h.2

/-- Commands with options only. -/
theorem opts_normal {name : Str} {prio : Option Int} {cinit : Ns} {dc : DataCls} {parse : List Str → M Ns} {str : List Str → Str} (s : Sheet) {need fixed T : List Str}
    {o : Out} (hparse : ∀ args n, M.Post n (parse args) (ParsedBy op dc.init T n args))
    (hstr : ∀ d, dc.str d = o.render d) (hs : str = listStr ∨ ∃ hd, headingOk hd = true ∧ str = headedListStr hd)
    (hsim : ∀ args args', Follows op dc.init [] noWords args args' → M.Sim (Alike [c!"lineno"]) (parse args) (parse args'))
    (hT : ∀ k ∈ T, k ∈ s.skip ∧ k ∉ fixed) (hc : s.check op dc.init o = true)
    (hn : (normalCheck s need fixed [] [] op dc.init [] o && optsOnly op && skipCheck s fixed op o) = true) :
    (listCmd name prio cinit dc parse str).Normal s need fixed (setToObj op.defaults dc.init) := by
  simp only [Bool.and_eq_true] at hn
  intro h args i d hd hp hL
  obtain ⟨d', e, hd'⟩ := list_value hd
  cases e
  exact list_normal ((hparse args i.lineno).run rfl hd') hstr hs hc hn.1.1 (fun k hk => (hT k hk).1) (fun k hk e => (hT k e).2 hk) (hsim args) hd (skip_ok hn.2 d)
    (fun ns ex _ => takes_noWords (Sheet.check_wf hc) hn.1.2 ns ex) hp hL

/-! ## Commands with a mount point -/

/-- The only positional argument is a mount point. -/
def mountOnly (op : OptParser) : Bool :=
  op.plainDefaults && decide (op.OneFirst c!"mntpoint") &&
  match op.initSt.positionals with
  | [a] => a.kind = .store && a.ty = .mount && a.choices.isNone && a.default = .none && (op.acts c!"mntpoint").all (fun b => b = a) &&
      op.actions.all fun b => !b.required || !b.opts.isEmpty || b.id = a.id
  | _ => false

theorem getValueList_mount {l : Option Int} {a : Action} (ht : a.ty = .mount) (hc : a.choices = none) (xs : List Str) :
    getValueList l a xs = .ok (xs.map mountpoint) := by
  induction xs with
  | nil => rfl
  | cons x t ih =>
    simp only [getValueList, getValue, Action.type, ht, Ty.run, tyMount, checkValue, hc, ih, bind, Except.bind, List.map_cons]
    rfl

theorem mount_value (h : mountOnly op = true) {l : Option Int} {ns : Ns} {ex : List Str} (hk : op.parseKnown l args = .ok (ns, ex)) :
    ∃ w, ns.get c!"mntpoint" = some (.list [w]) ∧ mountpoint w = w := by
  unfold mountOnly at h
  simp only [Bool.and_eq_true, decide_eq_true_eq] at h
  obtain ⟨⟨-, h1⟩, h2⟩ := h
  split at h2
  · rename_i a hp
    simp only [Bool.and_eq_true, decide_eq_true_eq, Option.isNone_iff_eq_none, List.all_eq_true] at h2
    obtain ⟨⟨⟨⟨⟨hkind, ht⟩, hc⟩, hd⟩, hacts⟩, -⟩ := h2
    have hn : a.nargs = .n 1 := by
      obtain ⟨b, hb, -, -, hbn, -⟩ := h1
      rw [hp] at hb
      simp only [List.mem_singleton] at hb
      rw [← hb]; exact hbn
    have hall : ∀ b, op.Has b → b.dest = c!"mntpoint" → b = a := fun b hb e => hacts b (mem_acts.2 ⟨hb, e⟩)
    have hH : ns.Holds c!"mntpoint" fun v => v = .none ∨ ∃ l : List Str, v = .list l ∧ ∀ x ∈ l, mountpoint x = x := by
      refine parseKnown_holds ?_ ?_ ?_ hk
      · intro b hb e
        rw [hall b (.inl hb) e]
        exact .inl hd
      · intro b hb e xs v _ hv o _
        rw [hall b hb e] at hv ⊢
        have hv' : v = .list ((if a.opts = [] then xs.erase c!"--" else xs).map mountpoint) := by
          unfold getValues at hv
          rw [hn] at hv
          simp only [getValueList_mount ht hc, Except.map] at hv
          split at hv <;> simp_all
        right
        refine ⟨_, by simp only [actVal, hkind]; exact hv', ?_⟩
        intro x hx
        obtain ⟨y, -, rfl⟩ := List.mem_map.1 hx
        exact C07_idempotent y
      · intro b hb e s v hs hv
        rw [hall b (.inl hb) e, hd] at hs
        cases hs
    have ho := h1.shape hk
    unfold Ns.getD at ho
    cases hg : ns.get c!"mntpoint" with
    | none => rw [hg] at ho; cases ho
    | some v =>
      rw [hg] at ho
      rcases hH v hg with rfl | ⟨l, rfl, hl⟩
      · cases ho
      · match l, ho with
        | [w], _ => exact ⟨w, rfl, hl w (by simp)⟩
  · cases h2

theorem takes_mount (wf : op.WF) (h : mountOnly op = true) {l : Option Int} {ns : Ns} {ex : List Str} (hk : op.parseKnown l args = .ok (ns, ex)) {w : Str}
    (hg : ns.get c!"mntpoint" = some (.list [w])) : Takes op [c!"mntpoint"] [w] ns (noWords ex) := by
  obtain ⟨w', hg', hw⟩ := mount_value h hk
  rw [hg] at hg'
  injection hg' with hg'
  injection hg' with hg'
  injection hg' with hg'
  subst hg'
  intro hdw l' ts h1 h2 h3 h4
  unfold mountOnly at h
  simp only [Bool.and_eq_true, decide_eq_true_eq] at h
  obtain ⟨⟨hdf, hof⟩, h⟩ := h
  split at h
  · rename_i a hp
    simp only [Bool.and_eq_true, decide_eq_true_eq, Option.isNone_iff_eq_none, List.all_eq_true, Bool.or_eq_true, Bool.not_eq_true', List.isEmpty_eq_false_iff] at h
    obtain ⟨⟨⟨⟨⟨hkind, ht⟩, hc⟩, -⟩, -⟩, hreq⟩ := h
    obtain ⟨b, hb, hsole, hbd, hbn, -⟩ := hof
    rw [hp] at hb
    simp only [List.mem_singleton] at hb
    subst hb
    have hgv : getValues l' b [w] = .ok (.list [w]) := by
      have he : ([w] : List Str).erase c!"--" = [w] := by
        rw [List.erase_cons]
        have : w ≠ c!"--" := by
          intro e
          have := hdw w (by simp)
          rw [e] at this
          exact absurd this (by decide)
        simp [this]
      simp only [getValues, hsole.pos, if_true, he, hbn, getValueList_mount ht hc, Except.map, List.map_cons, List.map_nil, hw]
    obtain ⟨ns', e1, e2⟩ := known_word wf hp hbn hkind hdf (hdw w (by simp)) h1 h2 hgv (fun c hcm hr => by
        rcases hreq c hcm with (h | h) | h
        · rw [hr] at h; cases h
        · exact .inr (h3 c hcm hr h)
        · exact .inl h) (fun t ht' c hcl e => h4 t ht' c hcl (by rw [e, hbd]; simp))
    refine ⟨ns', e1, fun k hkm => ?_⟩
    simp only [List.mem_singleton] at hkm
    subst hkm
    rw [← hbd, e2, hbd, hg]
  · cases h

/-- The mount point is the word that the parser returned. -/
def MountOf (op : OptParser) (n : Nat) (args : List Str) (d : Ns) : Prop :=
  ∃ ns ex v, op.parseKnown (some (n : Int)) args = .ok (ns, ex) ∧ (ns.getD c!"mntpoint").index 0 = .ok v ∧ d.get c!"mountpoint" = some v

theorem mount_word (h : mountOnly op = true) {n : Nat} {d : Ns} (hm : MountOf op n args d) {ns : Ns} {ex : List Str} (hk : op.parseKnown (some (n : Int)) args = .ok (ns, ex)) :
    ns.get c!"mntpoint" = some (.list [wordOf d [.fr (.fld c!"mountpoint")]]) := by
  obtain ⟨w, hw, -⟩ := mount_value h hk
  obtain ⟨ns', ex', v, h1, h2, h3⟩ := hm
  rw [hk] at h1
  injection h1 with h1
  injection h1 with h1
  subst h1
  rw [Ns.getD, hw] at h2
  have hv : v = .str w := by
    simpa [Val.index] using h2.symm
  have : wordOf d [.fr (.fld c!"mountpoint")] = w := by
    simp [wordOf, Sym.meant, Frag.meant, Frag.render, Ns.getD, h3, hv, Val.fmt]
  rw [this, hw]

/-! ## The text of objects that are alike -/

theorem Cond.eval_alike {d d' : Ns} (h : Alike [c!"lineno"] d d') {c : Cond} (hc : c.blind = true) : c.eval d = c.eval d' := by
  induction c with
  | tt => rfl
  | not c ih => simp only [Cond.eval, ih hc]
  | and a b iha ihb =>
    simp only [Cond.blind, Bool.and_eq_true] at hc
    simp only [Cond.eval, iha hc.1, ihb hc.2]
  | or a b iha ihb =>
    simp only [Cond.blind, Bool.and_eq_true] at hc
    simp only [Cond.eval, iha hc.1, ihb hc.2]
  | has k =>
    simp only [Cond.blind, bne_iff_ne] at hc
    simp only [Cond.eval, h k (by simpa using hc)]
  | _ =>
    simp only [Cond.blind, bne_iff_ne] at hc
    simp only [Cond.eval, h.getD (by simpa using hc)]

theorem Frag.render_alike {d d' : Ns} (h : Alike [c!"lineno"] d d') {f : Frag} (hf : f.blind = true) : f.render d = f.render d' := by
  cases f with
  | lit s => rfl
  | _ =>
    simp only [Frag.blind, bne_iff_ne] at hf
    simp only [Frag.render, h.getD (by simpa using hf)]

theorem Out.render_alike {d d' : Ns} (h : Alike [c!"lineno"] d d') {o : Out} (ho : o.blind = true) : o.render d = o.render d' := by
  unfold Out.render
  congr 1
  apply List.map_congr_left
  intro x hx
  have := List.all_eq_true.1 ho x hx
  simp only [Bool.and_eq_true] at this
  unfold pieceText
  rw [Cond.eval_alike h this.1, List.map_congr_left fun f hf => Frag.render_alike h (List.all_eq_true.1 this.2 f hf)]

/-- Objects that are alike except for their line numbers, one by one. -/
def AlikeL (l l' : List Ns) : Prop := List.Forall₂ (Alike [c!"lineno"]) l l'

/-- Lists of objects that are alike have the same text. -/
def Command.SameText (c : Command) : Prop := ∀ i i' : Inst CState, AlikeL i.attrs.data i'.attrs.data → c.str i = c.str i'

theorem list_same {name : Str} {prio : Option Int} {cinit : Ns} {dc : DataCls} {parse : List Str → M Ns} {str : List Str → Str} {o : Out}
    (hstr : ∀ d, dc.str d = o.render d) (ho : o.blind = true) : (listCmd name prio cinit dc parse str).SameText := by
  intro i i' h
  have : ∀ l l', AlikeL l l' → l.map dc.str = l'.map dc.str := by
    intro l l' h
    induction h with
    | nil => rfl
    | cons h1 _ ih => rw [List.map_cons, List.map_cons, ih, hstr, hstr, Out.render_alike h1 ho]
  change str (i.attrs.data.map dc.str) = str (i'.attrs.data.map dc.str)
  rw [this _ _ h]

end Ks
