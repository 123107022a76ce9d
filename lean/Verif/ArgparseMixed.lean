import Verif.ArgparseShape
/-!
# Command lines that mix positional words and options

The value of an attribute that only options write, after a successful parse of a line in which every
word is a positional word or an option with its value.
-/
namespace Ks

/-- A word of such a line. -/
inductive MixArg
  | pos (w : Str)
  | tok (t : Tok)

def MixArg.text : MixArg → Str
  | .pos w => w
  | .tok t => t.text

/-- A positional word does not start with `-`; an option is known and does not take the next word. -/
def MixArg.Ok (p : OptParser) : MixArg → Prop
  | .pos w => startsWith w c!"-" = false
  | .tok t => ∃ a, (t.name, a) ∈ p.strings ∧ (match t.val with | none => a.nargs = .n 0 | some _ => a.nargs = .one ∨ a.nargs = .opt)

def MixArg.cls (p : OptParser) : MixArg → Str × Cls
  | .pos w => (w, .A)
  | .tok t => tokCls p t

/-- The options among them. -/
def mixToks : List MixArg → List Tok
  | [] => []
  | .pos _ :: t => mixToks t
  | .tok x :: t => x :: mixToks t

theorem MixArg.Ok.fits {p : OptParser} {t : Tok} (h : (MixArg.tok t).Ok p) : t.Fits p := by
  obtain ⟨a, ha, h⟩ := h
  refine ⟨a, ha, ?_⟩
  cases hv : t.val with
  | none => rw [hv] at h; simp only at h; rw [h]; rfl
  | some v =>
    rw [hv] at h
    rcases h with h | h <;> rw [h] <;> rfl

theorem classify_mixed {p : OptParser} (wf : p.WF) (lineno : Option Int) {xs : List MixArg} (h : ∀ x ∈ xs, x.Ok p) :
    p.classify lineno (xs.map MixArg.text) = .ok (xs.map (MixArg.cls p)) := by
  induction xs with
  | nil => rfl
  | cons x xs ih =>
    have ih := ih fun x hx => h x (by simp [hx])
    have hx := h x (by simp)
    cases x with
    | pos w =>
      have := classify_pos p lineno (pos := [w]) (by intro w' hw; simp only [List.mem_singleton] at hw; rw [hw]; exact hx) (xs.map MixArg.text)
      simp only [List.cons_append, List.nil_append] at this
      rw [List.map_cons, MixArg.text, this, ih]
      rfl
    | tok t =>
      have hf := hx.fits
      rw [List.map_cons, MixArg.text, classify_cons _ _ _ _ (hf.text_ne wf), parseOptional_tok wf lineno hf, ih]
      rfl

theorem mem_mixToks {xs : List MixArg} {t : Tok} : t ∈ mixToks xs ↔ MixArg.tok t ∈ xs := by
  induction xs with
  | nil => simp [mixToks]
  | cons x xs ih => cases x <;> simp [mixToks, ih]

theorem mixToks_append (a b : List MixArg) : mixToks (a ++ b) = mixToks a ++ mixToks b := by
  induction a with
  | nil => rfl
  | cons x a ih => cases x <;> simp [mixToks, ih]

theorem mixToks_pos {p : OptParser} {xs : List MixArg} (h : ∀ x ∈ xs, (x.cls p).2.isO = false) : mixToks xs = [] := by
  induction xs with
  | nil => rfl
  | cons x xs ih =>
    have hx := h x (by simp)
    have ih := ih fun x hx => h x (by simp [hx])
    cases x with
    | pos w => exact ih
    | tok t => simp [MixArg.cls, tokCls, Cls.isO] at hx

theorem take_preLen_notO (l : Args) {k : Nat} (hk : k ≤ preLen l) : ∀ x ∈ l.take k, x.2.isO = false := by
  intro x hx
  have := take_takeWhile_mem hk x hx
  simpa using this

/-- The loop: what is left, and the value that the attribute will have. -/
theorem parseLoop_mixed {p : OptParser} (wf : p.WF) {lineno : Option Int} {d : Str} {f : Nat} {xs : List MixArg} {st st' : LoopSt} {rest' : Args}
    (hx : ∀ x ∈ xs, x.Ok p) (hp : ∀ b ∈ st.positionals, b.dest ≠ d) (hf : xs.length < f)
    (h : parseLoop lineno f st (xs.map (MixArg.cls p)) = .ok (st', rest')) :
    st'.ns.get d = runKey p lineno d (mixToks xs) (st.ns.get d) ∧
      ∀ t ∈ mixToks xs, ∃ b v, p.lookup t.name = some b ∧ getValues lineno b t.val.toList = .ok v := by
  have key := parseLoop_inv' (lineno := lineno)
    (fun s rest => ∃ ys done, xs = done ++ ys ∧ rest = ys.map (MixArg.cls p) ∧ (∀ b ∈ s.positionals, b.dest ≠ d) ∧
      s.ns.get d = runKey p lineno d (mixToks done) (st.ns.get d) ∧
      ∀ t ∈ mixToks done, ∃ b v, p.lookup t.name = some b ∧ getValues lineno b t.val.toList = .ok v)
    (fun s rest => s.ns.get d = runKey p lineno d (mixToks xs) (st.ns.get d) ∧
      ∀ t ∈ mixToks xs, ∃ b v, p.lookup t.name = some b ∧ getValues lineno b t.val.toList = .ok v)
    ?_ ?_ ?_ ?_ f st (xs.map (MixArg.cls p)) (by simpa using hf) ⟨xs, [], rfl, rfl, hp, rfl, by simp [mixToks]⟩ h
  · exact key
  · rintro s1 str t tl s2 rest2 ⟨ys, done, hys, hr, hpos, hval, hok⟩ hco
    cases ys with
    | nil => simp at hr
    | cons y ys =>
      simp only [List.map_cons, List.cons.injEq] at hr
      obtain ⟨hy, htl⟩ := hr
      cases y with
      | pos w => simp [MixArg.cls] at hy
      | tok tk =>
        simp only [MixArg.cls, tokCls, Prod.mk.injEq, Cls.O.injEq] at hy
        obtain ⟨-, ht⟩ := hy
        obtain ⟨a, ha, hn⟩ := hx (.tok tk) (by rw [hys]; simp)
        have hl := wf.lookup ha
        have step : ∃ v, getValues lineno a tk.val.toList = .ok v ∧ s2.ns = s1.ns.set a.dest (actVal a v (s1.ns.getD a.dest)) ∧
            rest2 = tl ∧ s2.positionals = s1.positionals := by
          subst ht
          simp only [consumeOptional, hl] at hco
          cases hv : tk.val with
          | none =>
            rw [hv] at hn hco
            simp only at hn
            simp only [hn, matchOptional, Nat.zero_le, if_true, List.take_zero, List.map_nil, List.drop_zero] at hco
            split at hco
            · cases hco
            · rename_i ns hns
              obtain ⟨v, hv, rfl⟩ := takeAction_ok hns
              simp only [Except.ok.injEq, Prod.mk.injEq] at hco
              obtain ⟨rfl, rfl⟩ := hco
              exact ⟨v, hv, rfl, rfl, rfl⟩
          | some w =>
            rw [hv] at hn hco
            have hm : matchOptional a.nargs [(w, Cls.A)] = some 1 := by
              rcases hn with hn | hn <;> rw [hn] <;> rfl
            simp only [hm] at hco
            split at hco
            · cases hco
            · rename_i ns hns
              obtain ⟨v, hv, rfl⟩ := takeAction_ok hns
              simp only [Except.ok.injEq, Prod.mk.injEq] at hco
              obtain ⟨rfl, rfl⟩ := hco
              exact ⟨v, hv, rfl, rfl, rfl⟩
        obtain ⟨v, hv, hns, rfl, hps⟩ := step
        refine ⟨ys, done ++ [.tok tk], by rw [hys]; simp, htl, by rw [hps]; exact hpos, ?_, ?_⟩
        · rw [mixToks_append, runKey_append, hns, ← hval]
          simp only [mixToks, runKey, hl, hv]
          by_cases hd : a.dest = d
          · subst hd
            rw [if_pos rfl, Ns.get_set_self]
            rfl
          · rw [if_neg hd, Ns.get_set_ne _ _ hd]
        · intro t' ht'
          rw [mixToks_append, List.mem_append] at ht'
          rcases ht' with ht' | ht'
          · exact hok t' ht'
          · simp only [mixToks, List.mem_singleton] at ht'
            subst ht'
            exact ⟨a, v, hl, hv⟩
  · rintro s1 pre s t tl hpre ⟨ys, done, hys, hr, hpos, hval, hok⟩
    obtain ⟨y1, y2, rfl, h1, h2⟩ := List.map_eq_append_iff.1 hr.symm
    have hn : mixToks y1 = [] := mixToks_pos (p := p) fun x hx => by
      have := hpre (x.cls p) (by rw [← h1]; exact List.mem_map_of_mem hx)
      exact this
    have hdone : mixToks (done ++ y1) = mixToks done := by rw [mixToks_append, hn, List.append_nil]
    exact ⟨y2, done ++ y1, by rw [hys]; simp, h2.symm, hpos, by rw [hdone]; exact hval, by rw [hdone]; exact hok⟩
  · rintro s1 rest1 s2 rest2 ⟨ys, done, hys, hr, hpos, hval, hok⟩ hco
    obtain ⟨-, ⟨k, hk, hrest⟩, n, hn⟩ := consumePositionals_ok hco
    have hg := consumePositionals_get hco hpos
    have hnt : mixToks (ys.take k) = [] := mixToks_pos (p := p) fun x hx => by
      refine take_preLen_notO rest1 hk (x.cls p) ?_
      rw [hr, ← List.map_take]
      exact List.mem_map_of_mem hx
    have hdone : mixToks (done ++ ys.take k) = mixToks done := by rw [mixToks_append, hnt, List.append_nil]
    refine ⟨ys.drop k, done ++ ys.take k, by rw [hys]; simp, by rw [hrest, hr, List.map_drop], ?_, by rw [hdone, hg]; exact hval, by rw [hdone]; exact hok⟩
    intro b hb
    rw [hn] at hb
    exact hpos b (List.mem_of_mem_drop hb)
  · rintro s1 rest1 hrest ⟨ys, done, hys, hr, hpos, hval, hok⟩
    have hn : mixToks ys = [] := mixToks_pos (p := p) fun x hx => hrest (x.cls p) (by rw [hr]; exact List.mem_map_of_mem hx)
    have hdone : mixToks xs = mixToks done := by rw [hys, mixToks_append, hn, List.append_nil]
    rw [hdone]
    exact ⟨hval, hok⟩

theorem finish_get_str {lineno : Option Int} {seen : List Nat} {as : List Action} {ns ns' : Ns} {m m' : Bool}
    (h : finish lineno seen as ns m = .ok (ns', m')) {d : Str}
    (hd : ∀ a ∈ as, a.dest = d → a.default.isStr = false ∨ a.ty = .str) : ns'.get d = ns.get d := by
  induction as generalizing ns m with
  | nil =>
    simp only [finish, Except.ok.injEq, Prod.mk.injEq] at h
    rw [h.1]
  | cons a as ih =>
    have ih := fun {ns m} => @ih ns m
    have hd' : ∀ a ∈ as, a.dest = d → a.default.isStr = false ∨ a.ty = .str := fun b hb => hd b (by simp [hb])
    rw [finish] at h
    split at h
    · exact ih h hd'
    · split at h
      · exact ih h hd'
      · split at h
        · rename_i s hs2
          split at h
          · rename_i hns
            split at h
            · cases h
            · rename_i v hv
              rw [ih h hd']
              by_cases e : a.dest = d
              · rcases hd a (by simp) e with h1 | h1
                · rw [hs2] at h1; cases h1
                · simp only [getValue, Action.type, h1, Ty.run, Except.ok.injEq] at hv
                  rw [← hv, e, Ns.get_set_self, ← e, hns]
              · exact Ns.get_set_ne _ _ e
          · exact ih h hd'
        · exact ih h hd'

/-- The value of an attribute that only options write. -/
theorem parseKnown_mixed {p : OptParser} (wf : p.WF) {lineno : Option Int} {d : Str} {xs : List MixArg} {ns : Ns} {ex : List Str}
    (hx : ∀ x ∈ xs, x.Ok p) (hp : ∀ b ∈ p.actions, b.dest = d → b.opts ≠ [] ∧ (b.default.isStr = false ∨ b.ty = .str))
    (h : p.parseKnown lineno (xs.map MixArg.text) = .ok (ns, ex)) :
    ns.get d = runKey p lineno d (mixToks xs) (p.defaults.get d) ∧
      ∀ t ∈ mixToks xs, ∃ b v, p.lookup t.name = some b ∧ getValues lineno b t.val.toList = .ok v := by
  unfold OptParser.parseKnown at h
  rw [classify_mixed wf lineno hx] at h
  simp only at h
  split at h
  · cases h
  rename_i st rest hloop
  split at h
  · cases h
  rename_i ns' missing hfin
  split at h
  · cases h
  simp only [Except.ok.injEq, Prod.mk.injEq] at h
  obtain ⟨rfl, -⟩ := h
  rw [finish_get_str hfin fun a ha e => (hp a ha e).2]
  refine parseLoop_mixed wf hx ?_ (by simp) hloop
  intro b hb e
  simp only [OptParser.initSt, List.mem_filter, List.isEmpty_iff] at hb
  exact (hp b hb.1 e).1 hb.2

end Ks
