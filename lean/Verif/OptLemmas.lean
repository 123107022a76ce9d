import Verif.ArgparseLine
import Verif.SectionLemmas
/-!
# Parsing option lists with known effects
-/
namespace Ks

/-- The parser knows the option, takes a value iff one is given, and sets one attribute. -/
def OptParser.Eats (p : OptParser) (l : Option Int) (t : Tok) (kv : Str × Val) : Prop :=
  ∃ a, p.lookup t.name = some a ∧
    matchOptional a.nargs (t.val.toList.map fun v => (v, Cls.A)) = some t.val.toList.length ∧
    ∀ ns, takeAction l a t.val.toList ns = .ok (ns.set kv.1 kv.2)

/-- Set attributes one after the other. -/
def Ns.setAll (kvs : List (Str × Val)) (ns : Ns) : Ns := kvs.foldl (fun ns kv => ns.set kv.1 kv.2) ns

theorem lookup_mem_pair {α : Type} {k : Str} {v : α} {l : List (Str × α)} (h : l.lookup k = some v) : (k, v) ∈ l := by
  induction l with
  | nil => simp at h
  | cons x t ih =>
    obtain ⟨k', v'⟩ := x
    rw [lookup_cons_ite] at h
    split at h
    · rename_i e; cases h; subst e; simp
    · exact .tail _ (ih h)

variable {p : OptParser} {l : Option Int}

theorem OptParser.Eats.fits {t : Tok} {kv : Str × Val} (h : p.Eats l t kv) : t.Fits p := by
  obtain ⟨a, h1, h2, _⟩ := h
  exact ⟨a, lookup_mem_pair h1, h2⟩

theorem runToks_eats {ts : List (Tok × Str × Val)} (h : ∀ x ∈ ts, p.Eats l x.1 x.2) (ns : Ns) :
    runToks p l (ts.map (·.1)) ns = .ok (ns.setAll (ts.map (·.2))) := by
  induction ts generalizing ns with
  | nil => rfl
  | cons x t ih =>
    obtain ⟨a, h1, _, h3⟩ := h x (by simp)
    rw [List.map_cons, runToks, h1]
    simp only [h3]
    exact ih (fun y hy => h y (by simp [hy])) _

/-- A list of known options after some positional words the parser does not take. -/
theorem parseKnown_eats (wf : p.WF) (hp : p.initSt.positionals = []) {pos : List Str} (hpos : ∀ w ∈ pos, startsWith w c!"-" = false)
    {ts : List (Tok × Str × Val)} (h : ∀ x ∈ ts, p.Eats l x.1 x.2)
    (hr : ∀ a ∈ p.actions, a.required = true → a.id ∈ tokIds p (ts.map (·.1)))
    (hd : ∀ a ∈ p.actions, ∀ s, a.default = .str s → a.type s = .ok (.str s)) :
    p.parseKnown l (pos ++ ts.map (·.1.text)) = .ok (p.defaults.setAll (ts.map (·.2)), pos) := by
  have hk := parseKnown_opts wf l hp hpos (ts := ts.map (·.1)) (fun t ht => by
    obtain ⟨x, hx, rfl⟩ := List.mem_map.1 ht; exact (h x hx).fits)
  rw [runToks_eats h] at hk
  simp only at hk
  rw [finish_id (fun a ha hra => by simpa using hr a ha hra) hd] at hk
  simpa [List.map_map, Function.comp_def] using hk

theorem parseArgs_eats (wf : p.WF) (hp : p.initSt.positionals = [])
    {ts : List (Tok × Str × Val)} (h : ∀ x ∈ ts, p.Eats l x.1 x.2)
    (hr : ∀ a ∈ p.actions, a.required = true → a.id ∈ tokIds p (ts.map (·.1)))
    (hd : ∀ a ∈ p.actions, ∀ s, a.default = .str s → a.type s = .ok (.str s)) :
    p.parseArgs l (ts.map (·.1.text)) = .ok (p.defaults.setAll (ts.map (·.2))) := by
  have := parseKnown_eats wf hp (pos := []) (by simp) h hr hd
  unfold OptParser.parseArgs
  rw [List.nil_append] at this
  rw [this]
  simp

theorem Ns.get_setAll (kvs : List (Str × Val)) (ns : Ns) (k : Str) :
    (ns.setAll kvs).get k = match (kvs.filterMap fun kv => if kv.1 = k then some kv.2 else none).getLast? with
      | some v => some v
      | none => ns.get k := by
  unfold Ns.setAll
  induction kvs generalizing ns with
  | nil => rfl
  | cons kv t ih =>
    rw [List.foldl_cons, ih, List.filterMap_cons]
    by_cases hk : kv.1 = k
    · rw [if_pos hk]
      simp only
      cases hl : (t.filterMap fun kv => if kv.1 = k then some kv.2 else none).getLast? with
      | some v => rw [List.getLast?_cons, hl]; rfl
      | none => rw [List.getLast?_cons, hl, Ns.get_set, if_pos hk]; rfl
    · rw [if_neg hk]
      simp only
      rw [Ns.get_set_ne _ _ hk]

/-- An attribute the options do not set. -/
theorem Ns.get_setAll_none {kvs : List (Str × Val)} {k : Str} (h : ∀ kv ∈ kvs, kv.1 ≠ k) (ns : Ns) : (ns.setAll kvs).get k = ns.get k := by
  rw [Ns.get_setAll]
  have : (kvs.filterMap fun kv => if kv.1 = k then some kv.2 else none) = [] := by
    rw [List.filterMap_eq_nil_iff]
    intro kv hkv
    rw [if_neg (h kv hkv)]
  rw [this]; rfl

/-- An attribute the options set, always to the same value. -/
theorem Ns.get_setAll_some {kvs : List (Str × Val)} {k : Str} {v : Val} (h : (k, v) ∈ kvs) (hu : ∀ kv ∈ kvs, kv.1 = k → kv.2 = v) (ns : Ns) :
    (ns.setAll kvs).get k = some v := by
  rw [Ns.get_setAll]
  have hne : (kvs.filterMap fun kv => if kv.1 = k then some kv.2 else none) ≠ [] := by
    intro e
    have := List.filterMap_eq_nil_iff.1 e _ h
    simp at this
  cases hl : (kvs.filterMap fun kv => if kv.1 = k then some kv.2 else none).getLast? with
  | none => exact absurd (List.getLast?_eq_none_iff.1 hl) hne
  | some v' =>
    have hm := List.mem_of_getLast? hl
    obtain ⟨kv, hkv, e⟩ := List.mem_filterMap.1 hm
    split at e
    · rename_i ek; cases e; rw [hu kv hkv ek]
    · cases e

/-- An option with one value. -/
theorem eats_store {name s : Str} {v : Val} {a : Action} (hl : p.lookup name = some a) (hk : a.kind = .store) (hn : a.nargs = .one)
    (ho : a.opts ≠ []) (hc : a.choices = none) {k : Str} (hd : a.dest = k) (ht : a.type s = .ok v) : p.Eats l ⟨name, some s⟩ (k, v) := by
  subst hd
  refine ⟨a, hl, by rw [hn]; rfl, fun ns => ?_⟩
  simp [takeAction, getValues, getValue, checkValue, applyAction, ho, hn, hc, hk, ht, Except.map, bind, Except.bind, pure, Except.pure]

/-- An option with one value out of a list. -/
theorem eats_choice {name s : Str} {cs : List Str} {a : Action} (hl : p.lookup name = some a) (hk : a.kind = .store) (hn : a.nargs = .one)
    (ho : a.opts ≠ []) (hc : a.choices = some cs) {k : Str} (hd : a.dest = k) (ht : a.type s = .ok (.str s)) (hs : s ∈ cs) :
    p.Eats l ⟨name, some s⟩ (k, .str s) := by
  subst hd
  refine ⟨a, hl, by rw [hn]; rfl, fun ns => ?_⟩
  simp [takeAction, getValues, getValue, checkValue, applyAction, ho, hn, hc, hk, ht, hs, Except.map, bind, Except.bind, pure, Except.pure]

/-- An option without a value. -/
theorem eats_const {name : Str} {a : Action} (hl : p.lookup name = some a) (hk : a.kind = .storeConst) (hn : a.nargs = .n 0)
    {k : Str} (hd : a.dest = k) {v : Val} (hc : a.const = v) : p.Eats l ⟨name, none⟩ (k, v) := by
  subst hd hc
  refine ⟨a, hl, by rw [hn]; rfl, fun ns => ?_⟩
  simp [takeAction, getValues, getValueList, applyAction, hn, hk, Except.map]

/-- Look the option up in a concrete parser and check what it does. -/
macro "eat_flag" : tactic => `(tactic| (refine eats_const (a := ?a) ?hl ?_ ?_ ?_ ?_; (case hl => exact rfl); all_goals rfl))
macro "eat_value" : tactic =>
  `(tactic| (refine eats_store (a := ?a) ?hl ?_ ?_ ?_ ?_ ?_ ?_; (case hl => exact rfl); all_goals first | rfl | exact List.cons_ne_nil _ _))
macro "eat_by " t:term : tactic =>
  `(tactic| (refine eats_store (a := ?a) ?hl ?_ ?_ ?_ ?_ ?_ ?_; (case hl => exact rfl); all_goals first | rfl | exact List.cons_ne_nil _ _ | exact $t))

end Ks
