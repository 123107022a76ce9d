import Verif.Argparse
import Verif.PyStrLemmas
/-!
# Lemmas about the argparse model
-/
namespace Ks

/-! ## Namespace -/

theorem Ns.get_set (ns : Ns) (k k' : Str) (v : Val) :
    (ns.set k v).get k' = if k = k' then some v else ns.get k' := by
  induction ns with
  | nil =>
    simp only [Ns.set, Ns.get, List.lookup_cons, List.lookup_nil]
    by_cases h : k = k'
    · subst h; simp
    · have : (k' == k) = false := by simpa using fun e => h e.symm
      simp [this, h]
  | cons p t ih =>
    obtain ⟨a, b⟩ := p
    simp only [Ns.set]
    split
    · rename_i h
      subst h
      simp only [Ns.get, List.lookup_cons]
      by_cases h : a = k'
      · subst h; simp
      · have : (k' == a) = false := by simpa using fun e => h e.symm
        simp [this, h]
    · rename_i h
      simp only [Ns.get, List.lookup_cons] at ih ⊢
      by_cases h2 : k' = a
      · subst h2
        have h3 : ¬ k = k' := fun e => h e.symm
        simp [h3]
      · have : (k' == a) = false := by simpa using h2
        simp [this, ih]

@[simp] theorem Ns.get_set_self (ns : Ns) (k : Str) (v : Val) : (ns.set k v).get k = some v := by
  simp [Ns.get_set]

theorem Ns.get_set_ne (ns : Ns) {k k' : Str} (v : Val) (h : k ≠ k') : (ns.set k v).get k' = ns.get k' := by
  simp [Ns.get_set, h]

theorem Ns.getD_set (ns : Ns) (k k' : Str) (v : Val) :
    (ns.set k v).getD k' = if k = k' then v else ns.getD k' := by
  unfold Ns.getD
  rw [Ns.get_set]
  split <;> rfl

/-- Attribute names. -/
def Ns.keys (ns : Ns) : List Str := ns.map (·.1)

@[simp] theorem Ns.keys_nil : Ns.keys [] = [] := rfl
@[simp] theorem Ns.keys_cons (k : Str) (v : Val) (t : Ns) : Ns.keys ((k, v) :: t) = k :: Ns.keys t := rfl

theorem Ns.keys_set (ns : Ns) (k : Str) (v : Val) :
    (ns.set k v).keys = if k ∈ ns.keys then ns.keys else ns.keys ++ [k] := by
  induction ns with
  | nil => simp [Ns.set, Ns.keys]
  | cons p t ih =>
    obtain ⟨a, b⟩ := p
    simp only [Ns.set]
    split
    · rename_i h; subst h; simp [Ns.keys]
    · rename_i h
      have h' : ¬ k = a := fun e => h e.symm
      simp only [Ns.keys_cons, List.mem_cons]
      rw [ih]
      by_cases hk : k ∈ Ns.keys t
      · rw [if_pos hk, if_pos (Or.inr hk)]
      · rw [if_neg hk, if_neg (by simp only [h', false_or]; exact hk)]
        rfl

theorem Ns.nodup_set {ns : Ns} (h : ns.keys.Nodup) (k : Str) (v : Val) : (ns.set k v).keys.Nodup := by
  rw [Ns.keys_set]
  split
  · exact h
  · rename_i hk
    rw [List.nodup_append]
    refine ⟨h, by simp, ?_⟩
    intro a ha b hb
    simp at hb
    subst hb
    rintro rfl
    exact hk ha

theorem Ns.get_eq_none_iff (ns : Ns) (k : Str) : ns.get k = none ↔ k ∉ ns.keys := by
  induction ns with
  | nil => simp [Ns.get, Ns.keys]
  | cons p t ih =>
    obtain ⟨a, b⟩ := p
    simp only [Ns.get, Ns.keys, List.lookup_cons, List.map_cons, List.mem_cons, not_or] at ih ⊢
    by_cases h : k = a
    · subst h; simp
    · have : (k == a) = false := by simpa using h
      simp [this, h, ih]

theorem Ns.get_of_mem {ns : Ns} (h : ns.keys.Nodup) {k : Str} {v : Val} (hm : (k, v) ∈ ns) :
    ns.get k = some v := by
  induction ns with
  | nil => simp at hm
  | cons p t ih =>
    obtain ⟨a, b⟩ := p
    simp only [Ns.keys, List.map_cons, List.nodup_cons] at h
    simp only [Ns.get, List.lookup_cons]
    rcases List.mem_cons.1 hm with e | hm
    · injection e with e1 e2
      subst e1; subst e2; simp
    · have hk : k ∈ t.map (·.1) := List.mem_map.2 ⟨_, hm, rfl⟩
      have : (k == a) = false := by
        simp only [beq_eq_false_iff_ne]
        rintro rfl
        exact h.1 hk
      simp only [this]
      exact ih h.2 hm

theorem Ns.mem_of_get {ns : Ns} {k : Str} {v : Val} (h : ns.get k = some v) : (k, v) ∈ ns := by
  induction ns with
  | nil => simp [Ns.get] at h
  | cons p t ih =>
    obtain ⟨a, b⟩ := p
    simp only [Ns.get, List.lookup_cons] at h ih
    split at h
    · rename_i he
      have : k = a := by simpa using he
      injection h with h
      subst this; subst h
      simp
    · exact List.mem_cons_of_mem _ (ih h)

/-! ## partition -/

theorem partition_eq_append (sep : Char) (a b : Str) (h : sep ∉ a) :
    partition sep (a ++ sep :: b) = (a, true, b) := by
  induction a with
  | nil => simp [partition]
  | cons c t ih =>
    simp only [List.mem_cons, not_or] at h
    have : c ≠ sep := fun e => h.1 e.symm
    simp [partition, this, ih h.2]

theorem partition_no_sep (sep : Char) (a : Str) (h : sep ∉ a) : partition sep a = (a, false, []) := by
  induction a with
  | nil => rfl
  | cons c t ih =>
    simp only [List.mem_cons, not_or] at h
    have : c ≠ sep := fun e => h.1 e.symm
    simp [partition, this, ih h.2]

theorem partition_found (sep : Char) (a : Str) (h : (partition sep a).2.1 = true) :
    a = (partition sep a).1 ++ sep :: (partition sep a).2.2 := by
  induction a with
  | nil => simp [partition] at h
  | cons c t ih =>
    simp only [partition] at h ⊢
    split at h
    · rename_i hc; subst hc; simp
    · rename_i hc
      simp only [if_neg hc, List.cons_append]
      congr 1
      exact ih h

theorem partition_fst (sep : Char) (a : Str) : sep ∉ (partition sep a).1 := by
  induction a with
  | nil => simp [partition]
  | cons c t ih =>
    simp only [partition]
    split
    · simp
    · rename_i hc
      simp only [List.mem_cons, not_or]
      exact ⟨fun e => hc e.symm, ih⟩

theorem partition_not_found (sep : Char) (a : Str) (h : (partition sep a).2.1 = false) :
    (partition sep a).1 = a ∧ sep ∉ a := by
  induction a with
  | nil => simp [partition]
  | cons c t ih =>
    simp only [partition] at h ⊢
    split at h
    · cases h
    · rename_i hc
      simp only [if_neg hc, List.mem_cons, not_or]
      have := ih h
      exact ⟨by rw [this.1], fun e => hc e.symm, this.2⟩

/-! ## Counting lemmas for the loop -/

theorem downTo_le {k n : Nat} (h : k ∈ downTo n) : k ≤ n := by
  induction n with
  | zero => simpa [downTo] using h
  | succ n ih =>
    simp only [downTo, List.mem_cons] at h
    rcases h with h | h
    · omega
    · have := ih h; omega

/-- The arguments before the next option. -/
def preLen (p : Args) : Nat := (p.takeWhile fun x => !x.2.isO).length

theorem takeWhile_length_le {α : Type} {p q : α → Bool} (h : ∀ x, p x = true → q x = true) (l : List α) :
    (l.takeWhile p).length ≤ (l.takeWhile q).length := by
  induction l with
  | nil => simp
  | cons a t ih =>
    by_cases hp : p a = true
    · simp [hp, h a hp, ih]
    · simp [hp]

theorem Cls.notO_of_isDash (x : Str × Cls) (h : x.2.isDash = true) : (!x.2.isO) = true := by
  obtain ⟨s, c⟩ := x
  cases c <;> simp_all [Cls.isDash, Cls.isO]

theorem Cls.notO_of_isA (x : Str × Cls) (h : x.2.isA = true) : (!x.2.isO) = true := by
  obtain ⟨s, c⟩ := x
  cases c <;> simp_all [Cls.isA, Cls.isO]

theorem preLen_dashes (p : Args) :
    preLen p = (p.takeWhile (·.2.isDash)).length + preLen (p.dropWhile (·.2.isDash)) := by
  induction p with
  | nil => rfl
  | cons x t ih =>
    unfold preLen at ih ⊢
    by_cases h : x.2.isDash = true
    · have h2 := Cls.notO_of_isDash x h
      simp only [List.takeWhile_cons, h, if_true, h2, List.dropWhile_cons, List.length_cons]
      omega
    · simp [List.takeWhile_cons, h]

theorem candN_le (n : Nat) (p : Args) : ∀ k ∈ candN n p, k ≤ preLen p := by
  induction n generalizing p with
  | zero =>
    intro k hk
    simp only [candN] at hk
    exact Nat.le_trans (downTo_le hk) (takeWhile_length_le Cls.notO_of_isDash p)
  | succ n ih =>
    intro k hk
    simp only [candN] at hk
    split at hk
    · rename_i s t hd
      obtain ⟨j, hj, rfl⟩ := List.mem_map.1 hk
      have := ih t j hj
      rw [preLen_dashes p, hd]
      have : preLen ((s, Cls.A) :: t) = preLen t + 1 := by
        simp [preLen, Cls.isO]
      omega
    · simp at hk

theorem candidates_le (n : Nargs) (p : Args) : ∀ k ∈ candidates n p, k ≤ preLen p := by
  intro k hk
  cases n with
  | one => exact candN_le 1 p k hk
  | n m => exact candN_le m p k hk
  | star =>
    simp only [candidates] at hk
    refine Nat.le_trans (downTo_le hk) (takeWhile_length_le (fun x h => ?_) p)
    rcases Bool.or_eq_true _ _ ▸ h with h | h
    · exact Cls.notO_of_isA x h
    · exact Cls.notO_of_isDash x h
  | opt =>
    simp only [candidates, List.mem_append] at hk
    rcases hk with hk | hk
    · exact candN_le 1 p k hk
    · exact Nat.le_trans (downTo_le hk) (takeWhile_length_le Cls.notO_of_isDash p)

theorem preLen_drop {p : Args} {k : Nat} (h : k ≤ preLen p) : preLen p = k + preLen (p.drop k) := by
  induction k generalizing p with
  | zero => simp
  | succ k ih =>
    cases p with
    | nil => simp [preLen] at h
    | cons x t =>
      by_cases hx : (!x.2.isO) = true
      · have e : preLen (x :: t) = preLen t + 1 := by simp only [preLen, List.takeWhile_cons, hx, if_true, List.length_cons]
        rw [e] at h ⊢
        have := ih (p := t) (by omega)
        simp only [List.drop_succ_cons]
        omega
      · have : preLen (x :: t) = 0 := by simp only [preLen, List.takeWhile_cons, hx]; rfl
        omega

theorem matchAll_le (ns : List Nargs) (p : Args) (r : List Nat) (h : matchAll ns p = some r) :
    r.sum ≤ preLen p ∧ r.length = ns.length := by
  induction ns generalizing p r with
  | nil => simp only [matchAll, Option.some.injEq] at h; subst h; simp
  | cons n ns ih =>
    simp only [matchAll] at h
    obtain ⟨k, hk, hr⟩ := List.exists_of_findSome?_eq_some h
    cases hm : matchAll ns (p.drop k) with
    | none => rw [hm] at hr; simp at hr
    | some r' =>
      rw [hm] at hr
      simp only [Option.map_some, Option.some.injEq] at hr
      subst hr
      obtain ⟨h1, h2⟩ := ih _ _ hm
      have h3 := candidates_le n p k hk
      have h4 := preLen_drop h3
      simp only [List.sum_cons, List.length_cons]
      omega

theorem matchPartial_le (ns : List Nargs) (p : Args) :
    (matchPartial ns p).sum ≤ preLen p ∧ (matchPartial ns p).length ≤ ns.length := by
  unfold matchPartial
  have : ∀ i, i ≤ ns.length → (matchPartial.go ns p i).sum ≤ preLen p ∧ (matchPartial.go ns p i).length ≤ ns.length := by
    intro i
    induction i with
    | zero => intro _; simp [matchPartial.go]
    | succ i ih =>
      intro hi
      simp only [matchPartial.go]
      split
      · rename_i r hr
        have := matchAll_le _ _ _ hr
        refine ⟨this.1, ?_⟩
        rw [this.2, List.length_take]
        omega
      · exact ih (by omega)
  exact this _ (Nat.le_refl _)

/-! ## Steps of the loop -/

theorem splitO_none {p : Args} (h : splitO p = none) : ∀ x ∈ p, x.2.isO = false := by
  fun_induction splitO p with
  | case1 => simp
  | case2 => cases h
  | case3 x tl hne hs ih =>
    intro y hy
    rcases List.mem_cons.1 hy with rfl | hy
    · obtain ⟨s, c⟩ := y
      cases c with
      | O t => exact (hne s t rfl).elim
      | _ => rfl
    · exact ih hs y hy
  | case4 => cases h

theorem splitO_some {p pre tl : Args} {s : Str} {t : OptTuple} (h : splitO p = some (pre, s, t, tl)) :
    p = pre ++ (s, .O t) :: tl ∧ (∀ x ∈ pre, x.2.isO = false) := by
  fun_induction splitO p generalizing pre with
  | case1 => cases h
  | case2 s' t' tl' =>
    simp only [Option.some.injEq, Prod.mk.injEq] at h
    obtain ⟨rfl, rfl, rfl, rfl⟩ := h
    simp
  | case3 => cases h
  | case4 x tl' hne pre' r hs ih =>
    simp only [Option.some.injEq, Prod.mk.injEq] at h
    obtain ⟨rfl, rfl⟩ := h
    obtain ⟨h1, h2⟩ := ih hs
    refine ⟨by rw [h1]; rfl, ?_⟩
    intro y hy
    rcases List.mem_cons.1 hy with rfl | hy
    · obtain ⟨s, c⟩ := y
      cases c with
      | O t => exact (hne s t rfl).elim
      | _ => rfl
    · exact h2 y hy

theorem splitO_append {pre tl : Args} {s : Str} {t : OptTuple} (h : ∀ x ∈ pre, x.2.isO = false) :
    splitO (pre ++ (s, .O t) :: tl) = some (pre, s, t, tl) := by
  induction pre with
  | nil => rfl
  | cons x pre ih =>
    obtain ⟨a, c⟩ := x
    have hx := h (a, c) (by simp)
    have ih := ih (fun y hy => h y (by simp [hy]))
    cases c with
    | O t => simp [Cls.isO] at hx
    | _ => simp only [List.cons_append, splitO, ih]

theorem splitO_eq_none {p : Args} (h : ∀ x ∈ p, x.2.isO = false) : splitO p = none := by
  induction p with
  | nil => rfl
  | cons x pre ih =>
    obtain ⟨a, c⟩ := x
    have hx := h (a, c) (by simp)
    have ih := ih (fun y hy => h y (by simp [hy]))
    cases c with
    | O t => simp [Cls.isO] at hx
    | _ => simp only [splitO, ih]

theorem takePositionals_ok {lineno : Option Int} {as : List Action} {ks : List Nat} {st st' : LoopSt}
    {rest rest' : Args} (h : takePositionals lineno as ks st rest = .ok (st', rest')) :
    st'.extras = st.extras ∧ ∃ k, k ≤ ks.sum ∧ rest' = rest.drop k := by
  induction as generalizing ks st rest with
  | nil =>
    simp only [takePositionals, Except.ok.injEq, Prod.mk.injEq] at h
    exact ⟨by rw [← h.1], 0, by omega, by simpa using h.2.symm⟩
  | cons a as ih =>
    cases ks with
    | nil =>
      simp only [takePositionals, Except.ok.injEq, Prod.mk.injEq] at h
      exact ⟨by rw [← h.1], 0, by omega, by simpa using h.2.symm⟩
    | cons k ks =>
      simp only [takePositionals] at h
      split at h
      · cases h
      · obtain ⟨h1, j, hj, h2⟩ := ih h
        refine ⟨h1, k + j, by simp; omega, ?_⟩
        rw [h2, List.drop_drop]

theorem consumePositionals_ok {lineno : Option Int} {st st' : LoopSt}
    {rest rest' : Args} (h : consumePositionals lineno st rest = .ok (st', rest')) :
    st'.extras = st.extras ∧ (∃ k, k ≤ preLen rest ∧ rest' = rest.drop k) ∧
      ∃ n, st'.positionals = st.positionals.drop n := by
  unfold consumePositionals at h
  simp only at h
  split at h
  · cases h
  · rename_i st1 rest1 ht
    simp only [Except.ok.injEq, Prod.mk.injEq] at h
    obtain ⟨h1, k, hk, h2⟩ := takePositionals_ok ht
    refine ⟨by rw [← h.1]; exact h1, ⟨k, ?_, by rw [← h.2]; exact h2⟩, _, by rw [← h.1]⟩
    exact Nat.le_trans hk (matchPartial_le _ _).1

theorem consumeOptional_ok {lineno : Option Int} {st st' : LoopSt} {s : Str} {t : OptTuple}
    {rest rest' : Args} (h : consumeOptional lineno st s t rest = .ok (st', rest')) :
    (∃ k, k ≤ (rest.takeWhile (·.2.isA)).length ∧ rest' = rest.drop k) ∧
    ((t.action = none ∧ st'.extras = st.extras ++ [s] ∧ st'.seen = st.seen ∧ st'.ns = st.ns) ∨
     (∃ a, t.action = some a ∧ st'.extras = st.extras ∧ st'.seen = a.id :: st.seen)) ∧
    st'.positionals = st.positionals := by
  unfold consumeOptional at h
  split at h
  · rename_i ha
    simp only [Except.ok.injEq, Prod.mk.injEq] at h
    exact ⟨⟨0, by omega, by simpa using h.2.symm⟩, Or.inl ⟨ha, by rw [← h.1], by rw [← h.1], by rw [← h.1]⟩, by rw [← h.1]⟩
  · rename_i a ha
    split at h
    · rename_i v hv
      split at h
      · split at h
        · cases h
        · simp only [Except.ok.injEq, Prod.mk.injEq] at h
          exact ⟨⟨0, by omega, by simpa using h.2.symm⟩, Or.inr ⟨a, ha, by rw [← h.1], by rw [← h.1]⟩, by rw [← h.1]⟩
      · cases h
      · cases h
    · split at h
      · cases h
      · rename_i k hk
        split at h
        · cases h
        · simp only [Except.ok.injEq, Prod.mk.injEq] at h
          refine ⟨⟨k, ?_, h.2.symm⟩, Or.inr ⟨a, ha, by rw [← h.1], by rw [← h.1]⟩, by rw [← h.1]⟩
          unfold matchOptional at hk
          simp only at hk
          split at hk
          · split at hk
            · injection hk with hk; omega
            · cases hk
          · injection hk with hk; omega
          · injection hk with hk; omega
          · split at hk
            · injection hk with hk; omega
            · cases hk

/-- The loop's rounds are bounded by the number of arguments: more fuel changes nothing. -/
theorem parseLoop_fuel (lineno : Option Int) (f : Nat) (st : LoopSt) (rest : Args) (h : rest.length < f) :
    parseLoop lineno (f + 1) st rest = parseLoop lineno f st rest := by
  induction f generalizing st rest with
  | zero => omega
  | succ f ih =>
    rw [parseLoop, parseLoop]
    split
    · rfl
    · rename_i pre s t tl hs
      have hl := congrArg List.length (splitO_some hs).1
      simp only [List.length_append, List.length_cons] at hl
      split
      · split
        · rfl
        · rename_i st' rest' hc
          obtain ⟨⟨k, _, hk⟩, _⟩ := consumeOptional_ok hc
          apply ih
          rw [hk, List.length_drop]; omega
      · split
        · rfl
        · rename_i st' rest' hc
          split
          · rename_i hlt
            apply ih
            omega
          · split
            · rfl
            · rename_i st2 rest2 hc2
              obtain ⟨⟨k, _, hk⟩, _⟩ := consumeOptional_ok hc2
              apply ih
              rw [hk, List.length_drop]; omega

/-- Induction over the rounds of the loop (with enough fuel): an invariant of the rounds holds
of the result. -/
theorem parseLoop_inv' {lineno : Option Int} (P : LoopSt → Args → Prop) (Q : LoopSt → Args → Prop)
    (hopt : ∀ st s t tl st' rest', P st ((s, .O t) :: tl) → consumeOptional lineno st s t tl = .ok (st', rest') → P st' rest')
    (hskip : ∀ st (pre : Args) s t tl, (∀ x ∈ pre, x.2.isO = false) → P st (pre ++ (s, .O t) :: tl) →
      P { st with extras := st.extras ++ pre.map (·.1) } ((s, .O t) :: tl))
    (hpos : ∀ st rest st' rest', P st rest → consumePositionals lineno st rest = .ok (st', rest') → P st' rest')
    (hend : ∀ st rest, (∀ x ∈ rest, x.2.isO = false) → P st rest → Q st rest)
    (f : Nat) (st : LoopSt) (rest : Args) (hf : rest.length < f) (h0 : P st rest)
    {st' : LoopSt} {rest' : Args} (h : parseLoop lineno f st rest = .ok (st', rest')) : Q st' rest' := by
  induction f generalizing st rest with
  | zero => omega
  | succ f ih =>
    rw [parseLoop] at h
    split at h
    · rename_i hs
      refine hend _ _ ?_ (hpos _ _ _ _ h0 h)
      obtain ⟨_, ⟨k, _, hk⟩, _⟩ := consumePositionals_ok h
      intro x hx
      rw [hk] at hx
      exact splitO_none hs x (List.mem_of_mem_drop hx)
    · rename_i pre s t tl hs
      obtain ⟨hr, hpre⟩ := splitO_some hs
      have hl := congrArg List.length hr
      simp only [List.length_append, List.length_cons] at hl
      split at h
      · rename_i hp
        subst hp
        split at h
        · cases h
        · rename_i st1 rest1 hc
          have hc' := consumeOptional_ok hc
          obtain ⟨⟨k, _, hk⟩, _⟩ := hc'
          refine ih st1 rest1 (by rw [hk, List.length_drop]; omega) (hopt _ _ _ _ _ _ ?_ hc) h
          rw [hr] at h0
          exact h0
      · split at h
        · cases h
        · rename_i st1 rest1 hc
          have h1 := hpos _ _ _ _ h0 hc
          split at h
          · exact ih st1 rest1 (by omega) h1 h
          · rename_i hlt
            have hre : rest1 = rest := by
              obtain ⟨_, ⟨k, _, hk⟩, _⟩ := consumePositionals_ok hc
              rw [hk, List.length_drop] at hlt
              rw [hk]
              cases k with
              | zero => rfl
              | succ k =>
                have : rest.length = 0 := by omega
                rw [List.length_eq_zero_iff.1 this]; rfl
            split at h
            · cases h
            · rename_i st2 rest2 hc2
              obtain ⟨⟨k, _, hk⟩, _⟩ := consumeOptional_ok hc2
              refine ih st2 rest2 (by rw [hk, List.length_drop]; omega) (hopt _ _ _ _ _ _ ?_ hc2) h
              apply hskip _ pre _ _ _ hpre
              rw [← hr, ← hre]
              exact h1

/-- The same, with a stronger condition on skipped words. -/
theorem parseLoop_inv {lineno : Option Int} (P : LoopSt → Args → Prop) (Q : LoopSt → Args → Prop)
    (hopt : ∀ st s t tl st' rest', P st ((s, .O t) :: tl) → consumeOptional lineno st s t tl = .ok (st', rest') → P st' rest')
    (hskip : ∀ st (pre : Args) tl, (∀ x ∈ pre, x.2.isO = false) → P st (pre ++ tl) → P { st with extras := st.extras ++ pre.map (·.1) } tl)
    (hpos : ∀ st rest st' rest', P st rest → consumePositionals lineno st rest = .ok (st', rest') → P st' rest')
    (hend : ∀ st rest, (∀ x ∈ rest, x.2.isO = false) → P st rest → Q st rest)
    (f : Nat) (st : LoopSt) (rest : Args) (hf : rest.length < f) (h0 : P st rest)
    {st' : LoopSt} {rest' : Args} (h : parseLoop lineno f st rest = .ok (st', rest')) : Q st' rest' :=
  parseLoop_inv' P Q hopt (fun st pre _ _ _ => hskip st pre _) hpos hend f st rest hf h0 h

/-! ## Which exceptions come out -/

/-- The converter of an argument raises only what `argparse` turns into an error, or a
`KickstartParseError` carrying the line number itself. -/
def Action.TypeOk (lineno : Option Int) (a : Action) : Prop :=
  ∀ s e, a.type s = .error e → e = .value ∨ e = .type ∨ ∃ tag, e = .parse tag lineno

/-- An error produced by the option parser for that line. -/
def IsArgErr (lineno : Option Int) (e : Exc) : Prop := ∃ tag, e = .parse tag lineno

theorem isArgErr_argErr (tag : Str) (lineno : Option Int) : IsArgErr lineno (argErr tag lineno) := ⟨tag, rfl⟩

theorem getValue_err {lineno : Option Int} {a : Action} (h : a.TypeOk lineno) {s : Str} {e : Exc}
    (he : getValue lineno a s = .error e) : IsArgErr lineno e := by
  unfold getValue at he
  split at he
  · cases he
  · injection he with he; subst he; exact isArgErr_argErr _ _
  · injection he with he; subst he; exact isArgErr_argErr _ _
  · rename_i e' hv ht ha
    injection he with he; subst he
    rcases h _ _ ha with rfl | rfl | h
    · exact (hv rfl).elim
    · exact (ht rfl).elim
    · exact h

theorem checkValue_err {lineno : Option Int} {a : Action} {v : Val} {e : Exc}
    (he : checkValue lineno a v = .error e) : IsArgErr lineno e := by
  unfold checkValue at he
  split at he
  · cases he
  · split at he
    · split at he
      · cases he
      · injection he with he; subst he; exact isArgErr_argErr _ _
    · injection he with he; subst he; exact isArgErr_argErr _ _

theorem getValueList_err {lineno : Option Int} {a : Action} (h : a.TypeOk lineno) {l : List Str} {e : Exc}
    (he : getValueList lineno a l = .error e) : IsArgErr lineno e := by
  induction l with
  | nil => cases he
  | cons s t ih =>
    simp only [getValueList, bind, Except.bind] at he
    split at he
    · rename_i e1 h1
      injection he with he; subst he
      exact getValue_err h h1
    · split at he
      · rename_i e1 h1
        injection he with he; subst he
        exact checkValue_err h1
      · split at he
        · rename_i e1 h1
          injection he with he; subst he
          exact ih h1
        · cases he

theorem getValues_err {lineno : Option Int} {a : Action} (h : a.TypeOk lineno) {l : List Str} {e : Exc}
    (he : getValues lineno a l = .error e) : IsArgErr lineno e := by
  have key : ∀ s, (do let v ← getValue lineno a s; checkValue lineno a v; return v : Except Exc Val) = .error e →
      IsArgErr lineno e := by
    intro s he
    simp only [bind, Except.bind] at he
    split at he
    · rename_i e1 h1
      injection he with he; subst he
      exact getValue_err h h1
    · split at he
      · rename_i e1 h1
        injection he with he; subst he
        exact checkValue_err h1
      · cases he
  unfold getValues at he
  simp only at he
  split at he
  · split at he
    · exact key _ he
    · cases he
  · split at he
    · simp only [bind, Except.bind] at he
      split at he
      · rename_i e1 h1
        injection he with he; subst he
        exact checkValue_err h1
      · cases he
    · cases he
  · exact key _ he
  · exact key _ he
  · cases hl : getValueList lineno a (if a.opts = [] then l.erase c!"--" else l) with
    | error e1 =>
      rw [hl] at he
      injection he with he; subst he
      exact getValueList_err h hl
    | ok r => rw [hl] at he; cases he

theorem takeAction_err {lineno : Option Int} {a : Action} (h : a.TypeOk lineno) {l : List Str} {ns : Ns} {e : Exc}
    (he : takeAction lineno a l ns = .error e) : IsArgErr lineno e := by
  unfold takeAction at he
  cases hv : getValues lineno a l with
  | error e1 =>
    rw [hv] at he
    injection he with he; subst he
    exact getValues_err h hv
  | ok r => rw [hv] at he; cases he

theorem takePositionals_err {lineno : Option Int} {as : List Action} {ks : List Nat} {st : LoopSt} {rest : Args}
    (h : ∀ a ∈ as, a.TypeOk lineno) {e : Exc} (he : takePositionals lineno as ks st rest = .error e) :
    IsArgErr lineno e := by
  induction as generalizing ks st rest with
  | nil => simp [takePositionals] at he
  | cons a as ih =>
    cases ks with
    | nil => simp [takePositionals] at he
    | cons k ks =>
      simp only [takePositionals] at he
      split at he
      · rename_i e1 h1
        injection he with he; subst he
        exact takeAction_err (h a (by simp)) h1
      · exact ih (fun b hb => h b (by simp [hb])) he

theorem consumePositionals_err {lineno : Option Int} {st : LoopSt} {rest : Args}
    (h : ∀ a ∈ st.positionals, a.TypeOk lineno) {e : Exc} (he : consumePositionals lineno st rest = .error e) :
    IsArgErr lineno e := by
  unfold consumePositionals at he
  simp only at he
  split at he
  · rename_i e1 h1
    injection he with he; subst he
    exact takePositionals_err h h1
  · cases he

theorem consumeOptional_err {lineno : Option Int} {st : LoopSt} {s : Str} {t : OptTuple} {rest : Args}
    (h : ∀ a, t.action = some a → a.TypeOk lineno) {e : Exc} (he : consumeOptional lineno st s t rest = .error e) :
    IsArgErr lineno e := by
  unfold consumeOptional at he
  split at he
  · cases he
  · rename_i a ha
    split at he
    · split at he
      · split at he
        · rename_i e1 h1
          injection he with he; subst he
          exact takeAction_err (h a ha) h1
        · cases he
      · injection he with he; subst he; exact isArgErr_argErr _ _
      · injection he with he; subst he; exact isArgErr_argErr _ _
    · split at he
      · injection he with he; subst he; exact isArgErr_argErr _ _
      · split at he
        · rename_i e1 h1
          injection he with he; subst he
          exact takeAction_err (h a ha) h1
        · cases he

/-- Every option tuple in the list has a well-behaved converter. -/
def ArgsOk (lineno : Option Int) (rest : Args) : Prop :=
  ∀ s t a, (s, Cls.O t) ∈ rest → t.action = some a → a.TypeOk lineno

theorem ArgsOk.drop {lineno : Option Int} {rest : Args} (h : ArgsOk lineno rest) (k : Nat) :
    ArgsOk lineno (rest.drop k) := fun s t a hm => h s t a (List.mem_of_mem_drop hm)

theorem parseLoop_err {lineno : Option Int} {f : Nat} {st : LoopSt} {rest : Args}
    (hp : ∀ a ∈ st.positionals, a.TypeOk lineno) (hr : ArgsOk lineno rest) {e : Exc}
    (he : parseLoop lineno f st rest = .error e) : IsArgErr lineno e := by
  induction f generalizing st rest with
  | zero => cases he
  | succ f ih =>
    rw [parseLoop] at he
    split at he
    · exact consumePositionals_err hp he
    · rename_i pre s t tl hs
      obtain ⟨hre, _⟩ := splitO_some hs
      have htl : ArgsOk lineno tl := fun s' t' a hm => hr s' t' a (by rw [hre]; simp [hm])
      have hst : ∀ a, t.action = some a → a.TypeOk lineno := fun a => hr s t a (by rw [hre]; simp)
      split at he
      · split at he
        · rename_i e1 h1
          injection he with he; subst he
          exact consumeOptional_err hst h1
        · rename_i st1 rest1 h1
          obtain ⟨⟨k, _, hk⟩, _, hpos⟩ := consumeOptional_ok h1
          exact ih (by rw [hpos]; exact hp) (by rw [hk]; exact htl.drop k) he
      · split at he
        · rename_i e1 h1
          injection he with he; subst he
          exact consumePositionals_err hp h1
        · rename_i st1 rest1 h1
          obtain ⟨_, ⟨k, _, hk⟩, n, hn⟩ := consumePositionals_ok h1
          have hp1 : ∀ a ∈ st1.positionals, a.TypeOk lineno := fun a ha => hp a (by
            rw [hn] at ha; exact List.mem_of_mem_drop ha)
          split at he
          · exact ih hp1 (by rw [hk]; exact hr.drop k) he
          · split at he
            · rename_i e1 h2
              injection he with he; subst he
              exact consumeOptional_err hst h2
            · rename_i st2 rest2 h2
              obtain ⟨⟨k, _, hk⟩, _, hpos⟩ := consumeOptional_ok h2
              exact ih (by rw [hpos]; exact hp1) (by rw [hk]; exact htl.drop k) he

theorem finish_err {lineno : Option Int} {seen : List Nat} {as : List Action} {ns : Ns} {m : Bool}
    (h : ∀ a ∈ as, a.TypeOk lineno) {e : Exc} (he : finish lineno seen as ns m = .error e) :
    IsArgErr lineno e := by
  induction as generalizing ns m with
  | nil => cases he
  | cons a as ih =>
    have ih := fun {ns m} => @ih ns m (fun b hb => h b (by simp [hb]))
    rw [finish] at he
    split at he
    · exact ih he
    · split at he
      · exact ih he
      · split at he
        · split at he
          · split at he
            · rename_i e1 h1
              injection he with he; subst he
              exact getValue_err (h a (by simp)) h1
            · exact ih he
          · exact ih he
        · exact ih he

/-- What `parseOptional` can return. -/
theorem parseOptional_action {p : OptParser} {lineno : Option Int} {s : Str} {t : OptTuple} {a : Action}
    (h : p.parseOptional lineno s = .ok (.O t)) (ha : t.action = some a) :
    ∃ k, (k, a) ∈ p.strings ∧ ((s = k) ∨ (∃ v, s = k ++ '=' :: v) ∨ ∃ t' ∈ p.optionTuples s, t' = t) := by
  have hlk : ∀ {k b}, p.lookup k = some b → (k, b) ∈ p.strings := by
    intro k b hl
    unfold OptParser.lookup at hl
    rw [List.lookup_eq_some_iff] at hl
    obtain ⟨l1, l2, hl, _⟩ := hl
    rw [hl]
    simp
  unfold OptParser.parseOptional at h
  split at h
  · cases h
  · split at h
    · rename_i b hb
      injection h with h; injection h with h; subst h
      injection ha with ha; subst ha
      exact ⟨s, hlk hb, Or.inl rfl⟩
    · split at h
      · cases h
      · simp only at h
        split at h
        · rename_i b hb
          injection h with h; injection h with h; subst h
          injection ha with ha; subst ha
          split at hb
          · rename_i hf
            refine ⟨_, hlk hb, Or.inr (Or.inl ⟨(partition '=' s).2.2, ?_⟩)⟩
            exact partition_found _ _ hf
          · cases hb
        · split at h
          · cases h
          · rename_i t' ht'
            injection h with h; injection h with h; subst h
            have : t' ∈ p.optionTuples s := by rw [ht']; simp
            have hk : ∃ k, (k, a) ∈ p.strings := by
              unfold OptParser.optionTuples at this
              split at this
              · obtain ⟨⟨k, b⟩, hb, he⟩ := List.mem_filterMap.1 this
                simp only at he
                split at he
                · injection he with he; subst he
                  injection ha with ha; subst ha
                  exact ⟨k, hb⟩
                · cases he
              · obtain ⟨⟨k, b⟩, hb, he⟩ := List.mem_filterMap.1 this
                simp only at he
                split at he
                · injection he with he; subst he
                  injection ha with ha; subst ha
                  exact ⟨k, hb⟩
                · split at he
                  · injection he with he; subst he
                    injection ha with ha; subst ha
                    exact ⟨k, hb⟩
                  · cases he
            obtain ⟨k, hk⟩ := hk
            exact ⟨k, hk, Or.inr (Or.inr ⟨_, this, rfl⟩)⟩
          · split at h
            · cases h
            · split at h
              · cases h
              · injection h with h; injection h with h; subst h
                cases ha

theorem parseOptional_err {p : OptParser} {lineno : Option Int} {s : Str} {e : Exc}
    (h : p.parseOptional lineno s = .error e) : IsArgErr lineno e := by
  unfold OptParser.parseOptional at h
  split at h
  · cases h
  · split at h
    · cases h
    · split at h
      · cases h
      · simp only at h
        split at h
        · cases h
        · split at h
          · injection h with h; subst h; exact isArgErr_argErr _ _
          · cases h
          · split at h
            · cases h
            · split at h <;> cases h

theorem classify_err {p : OptParser} {lineno : Option Int} {args : List Str} {e : Exc}
    (h : p.classify lineno args = .error e) : IsArgErr lineno e := by
  induction args with
  | nil => cases h
  | cons a t ih =>
    rw [OptParser.classify] at h
    split at h
    · cases h
    · split at h
      · rename_i e1 h1
        injection h with h; subst h
        exact parseOptional_err h1
      · split at h
        · rename_i e1 h1
          injection h with h; subst h
          exact ih h1
        · cases h

/-- Option tuples in a classified argument list come from `parseOptional`. -/
theorem classify_mem {p : OptParser} {lineno : Option Int} {args : List Str} {cs : Args}
    (h : p.classify lineno args = .ok cs) {s : Str} {t : OptTuple} (hm : (s, Cls.O t) ∈ cs) :
    s ∈ args ∧ p.parseOptional lineno s = .ok (.O t) := by
  induction args generalizing cs with
  | nil => injection h with h; subst h; simp at hm
  | cons a l ih =>
    rw [OptParser.classify] at h
    split at h
    · injection h with h; subst h
      simp at hm
    · split at h
      · cases h
      · rename_i c hc
        split at h
        · cases h
        · rename_i cs' hcs
          injection h with h; subst h
          rcases List.mem_cons.1 hm with e | hm
          · injection e with e1 e2
            subst e1; subst e2
            exact ⟨by simp, hc⟩
          · obtain ⟨h1, h2⟩ := ih hcs hm
            exact ⟨by simp [h1], h2⟩


/-! ## Parsers built by the API -/

/-- The names of an argument as `/repo` passes them: one name without leading dash (a positional),
or option strings `--x...` free of `=` and blanks. -/
def Arg.Ok (a : Arg) : Prop :=
  (∃ n, a.names = [n] ∧ startsWith n c!"-" = false) ∨
  (a.names ≠ [] ∧ a.names.Nodup ∧ ∀ n ∈ a.names, startsWith n c!"--" = true ∧ 2 < n.length ∧ '=' ∉ n ∧ ' ' ∉ n)

instance (a : Arg) : Decidable a.Ok := by
  unfold Arg.Ok
  have : Decidable (∃ n, a.names = [n] ∧ startsWith n c!"-" = false) :=
    match h : a.names with
    | [n] => if h2 : startsWith n c!"-" = false then isTrue ⟨n, rfl, h2⟩ else isFalse (by
        rintro ⟨m, hm, h3⟩; injection hm with hm; subst hm; exact h2 h3)
    | [] => isFalse (by rintro ⟨m, hm, _⟩; cases hm)
    | _ :: _ :: _ => isFalse (by rintro ⟨m, hm, _⟩; cases hm)
  infer_instance

/-- A parser obtained from a fresh one by `add_argument` and `remove_argument` calls. -/
inductive OptParser.Built : OptParser → Prop
  | empty : Built .empty
  | add {p : OptParser} {a : Arg} : Built p → a.Ok → Built (p.add a)
  | remove {p : OptParser} (s : Str) : Built p → Built (p.remove s)

/-- Invariants of built parsers. -/
structure OptParser.WF (p : OptParser) : Prop where
  idlt : ∀ a ∈ p.actions, a.id < p.nextId
  sidlt : ∀ kv ∈ p.strings, kv.2.id < p.nextId
  uniq : (p.actions.map (·.id)).Nodup
  /-- a registered string belongs to the option strings of its action object -/
  mem : ∀ kv ∈ p.strings, kv.1 ∈ kv.2.opts
  /-- the two tables hold the same objects -/
  same : ∀ kv ∈ p.strings, ∀ a ∈ p.actions, a.id = kv.2.id → a = kv.2
  /-- every option string of a live action is registered -/
  reg : ∀ a ∈ p.actions, ∀ o ∈ a.opts, (o, a) ∈ p.strings
  keys : ∀ kv ∈ p.strings, startsWith kv.1 c!"--" = true ∧ 2 < kv.1.length ∧ '=' ∉ kv.1 ∧ ' ' ∉ kv.1
  sameS : ∀ kv ∈ p.strings, ∀ kv' ∈ p.strings, kv.2.id = kv'.2.id → kv.2 = kv'.2
  nodup : (p.strings.map (·.1)).Nodup
  onodup : ∀ kv ∈ p.strings, kv.2.opts.Nodup

theorem OptParser.lookup_mem {p : OptParser} {k : Str} {b : Action} (hl : p.lookup k = some b) :
    (k, b) ∈ p.strings := by
  unfold OptParser.lookup at hl
  rw [List.lookup_eq_some_iff] at hl
  obtain ⟨l1, l2, hl, _⟩ := hl
  rw [hl]
  simp

theorem nodup_keys_inj {α : Type} {l : List (Str × α)} (h : (l.map (·.1)).Nodup) {k : Str} {a b : α}
    (ha : (k, a) ∈ l) (hb : (k, b) ∈ l) : a = b := by
  induction l with
  | nil => simp at ha
  | cons x t ih =>
    simp only [List.map_cons, List.nodup_cons] at h
    rcases List.mem_cons.1 ha with e1 | ha'
    · rcases List.mem_cons.1 hb with e2 | hb'
      · rw [← e1] at e2; injection e2 with _ e2; exact e2.symm
      · exact (h.1 (List.mem_map.2 ⟨_, hb', by rw [← e1]⟩)).elim
    · rcases List.mem_cons.1 hb with e2 | hb'
      · exact (h.1 (List.mem_map.2 ⟨_, ha', by rw [← e2]⟩)).elim
      · exact ih h.2 ha' hb'

theorem lookup_eq_some_of_mem {α : Type} {l : List (Str × α)} (h : (l.map (·.1)).Nodup) {k : Str} {a : α}
    (ha : (k, a) ∈ l) : l.lookup k = some a := by
  induction l with
  | nil => simp at ha
  | cons x t ih =>
    obtain ⟨k', a'⟩ := x
    simp only [List.map_cons, List.nodup_cons] at h
    rw [List.lookup_cons]
    rcases List.mem_cons.1 ha with e1 | ha'
    · injection e1 with e1 e2; subst e1; subst e2; simp
    · have : (k == k') = false := by
        simp only [beq_eq_false_iff_ne]
        rintro rfl
        exact h.1 (List.mem_map.2 ⟨_, ha', rfl⟩)
      rw [this]
      exact ih h.2 ha'

theorem lookup_eq_none_iff' {α : Type} {l : List (Str × α)} {k : Str} :
    l.lookup k = none ↔ k ∉ l.map (·.1) := by
  induction l with
  | nil => simp
  | cons x t ih =>
    obtain ⟨k', a'⟩ := x
    rw [List.lookup_cons]
    by_cases h : k = k'
    · subst h; simp
    · have : (k == k') = false := by simpa using h
      rw [this]
      simp only [List.map_cons, List.mem_cons, h, false_or]
      exact ih

theorem OptParser.WF.resolve1 {p : OptParser} (h : p.WF) (s : Str) :
    (p.resolve1 s).WF ∧ (p.resolve1 s).nextId = p.nextId ∧ s ∉ (p.resolve1 s).strings.map (·.1) ∧
    ∀ k ∈ (p.resolve1 s).strings.map (·.1), k ∈ p.strings.map (·.1) := by
  unfold OptParser.resolve1
  split
  · rename_i hl
    exact ⟨h, rfl, lookup_eq_none_iff'.1 hl, fun _ hk => hk⟩
  · rename_i a hl
    have ha : (s, a) ∈ p.strings := OptParser.lookup_mem hl
    have hane : ∀ b ∈ p.actions, b.id = a.id → b = a := fun b hb he => h.same _ ha b hb he
    have hsne : ∀ kv ∈ p.strings, kv.2.id = a.id → kv.2 = a := fun kv hkv he => h.sameS kv hkv _ ha he
    let f := fun (b : Action) => if b.id = a.id then { b with opts := a.opts.erase s } else b
    have hfid : ∀ b, (f b).id = b.id := fun b => by simp only [f]; split <;> rfl
    let p1 : OptParser := { actions := p.actions.map f, strings := (p.strings.map fun (s, a) => (s, f a)).filter (fun kv => kv.1 != s), nextId := p.nextId }
    have hp1mem : ∀ kv ∈ p1.strings, ∃ b, (kv.1, b) ∈ p.strings ∧ kv.2 = f b ∧ kv.1 ≠ s := by
      intro kv hkv
      simp only [p1, List.mem_filter, List.mem_map, bne_iff_ne] at hkv
      obtain ⟨⟨⟨k, b⟩, hb, he⟩, hne⟩ := hkv
      subst he
      exact ⟨b, hb, rfl, hne⟩
    have hp1act : ∀ c ∈ p1.actions, ∃ b ∈ p.actions, c = f b := by
      intro c hc
      simp only [p1, List.mem_map] at hc
      obtain ⟨b, hb, rfl⟩ := hc
      exact ⟨b, hb, rfl⟩
    have hp1 : p1.WF := by
      refine ⟨?_, ?_, ?_, ?_, ?_, ?_, ?_, ?_, ?_, ?_⟩
      · intro c hc
        obtain ⟨b, hb, rfl⟩ := hp1act c hc
        rw [hfid]; exact h.idlt b hb
      · intro kv hkv
        obtain ⟨b, hb, he, _⟩ := hp1mem kv hkv
        rw [he, hfid]; exact h.sidlt _ hb
      · simp only [p1, List.map_map]
        have : ((·.id) ∘ f : Action → Nat) = (·.id) := by funext b; exact hfid b
        rw [this]; exact h.uniq
      · intro kv hkv
        obtain ⟨b, hb, he, hne⟩ := hp1mem kv hkv
        rw [he]
        have := h.mem _ hb
        simp only [f]
        split
        · rename_i hid
          have hba : b = a := hsne _ hb hid
          subst hba
          exact (List.mem_erase_of_ne hne).2 this
        · exact this
      · intro kv hkv c hc hid
        obtain ⟨b, hb, he, hne⟩ := hp1mem kv hkv
        obtain ⟨b', hb', rfl⟩ := hp1act c hc
        rw [he, hfid, hfid] at hid
        rw [he, h.same _ hb b' hb' hid]
      · intro c hc o ho
        obtain ⟨b, hb, rfl⟩ := hp1act c hc
        have hob : o ∈ b.opts ∧ o ≠ s := by
          simp only [f] at ho
          split at ho
          · rename_i hid
            have hba := hane b hb hid
            subst hba
            have hn := h.onodup _ ha
            rw [hn.mem_erase_iff] at ho
            exact ⟨ho.2, ho.1⟩
          · rename_i hid
            refine ⟨ho, ?_⟩
            rintro rfl
            have := h.reg b hb o ho
            have hba := nodup_keys_inj h.nodup this ha
            subst hba
            exact hid rfl
        simp only [p1, List.mem_filter, List.mem_map, bne_iff_ne]
        exact ⟨⟨(o, b), h.reg b hb o hob.1, rfl⟩, hob.2⟩
      · intro kv hkv
        obtain ⟨b, hb, he, hne⟩ := hp1mem kv hkv
        exact h.keys (kv.1, b) hb
      · intro kv hkv kv' hkv' hid
        obtain ⟨b, hb, he, hne⟩ := hp1mem kv hkv
        obtain ⟨b', hb', he', hne'⟩ := hp1mem kv' hkv'
        rw [he, he', hfid, hfid] at hid
        have := h.sameS _ hb _ hb' hid
        simp only at this
        rw [he, he', this]
      · have : (p.strings.map fun (s, a) => (s, f a)).map (·.1) = p.strings.map (·.1) := by
          rw [List.map_map]; rfl
        refine (List.filter_sublist.map _).nodup (l₂ := (p.strings.map fun (s, a) => (s, f a)).map (·.1)) ?_
        rw [this]; exact h.nodup
      · intro kv hkv
        obtain ⟨b, hb, he, hne⟩ := hp1mem kv hkv
        rw [he]
        simp only [f]
        split
        · exact (h.onodup _ ha).erase s
        · exact h.onodup _ hb
    have hkeys : s ∉ p1.strings.map (·.1) := by
      intro hm
      obtain ⟨kv, hkv, rfl⟩ := List.mem_map.1 hm
      obtain ⟨b, hb, he, hne⟩ := hp1mem kv hkv
      exact hne rfl
    have hsub : ∀ k ∈ p1.strings.map (·.1), k ∈ p.strings.map (·.1) := by
      intro k hm
      obtain ⟨kv, hkv, rfl⟩ := List.mem_map.1 hm
      obtain ⟨b, hb, he, hne⟩ := hp1mem kv hkv
      exact List.mem_map.2 ⟨_, hb, rfl⟩
    show OptParser.WF (if a.opts.erase s = [] then { p1 with actions := p1.actions.filter (fun b => b.id != a.id) } else p1) ∧ _
    split
    · rename_i hnil
      refine ⟨⟨?_, hp1.sidlt, ?_, hp1.mem, ?_, ?_, hp1.keys, hp1.sameS, hp1.nodup, hp1.onodup⟩, ?_, ?_, ?_⟩
      · intro c hc; exact hp1.idlt c (List.mem_filter.1 hc).1
      · exact (List.filter_sublist.map _).nodup hp1.uniq
      · intro kv hkv c hc; exact hp1.same kv hkv c (List.mem_filter.1 hc).1
      · intro c hc; exact hp1.reg c (List.mem_filter.1 hc).1
      · simp only [hnil, if_pos]; rfl
      · simp only [hnil, if_pos]; simp only [p1, f, hnil] at hkeys; exact hkeys
      · simp only [hnil, if_pos]; simp only [p1, f, hnil] at hsub; exact hsub
    · rename_i hnil
      refine ⟨hp1, ?_, ?_, ?_⟩
      · simp only [if_neg hnil]; rfl
      · simp only [if_neg hnil]; exact hkeys
      · simp only [if_neg hnil]; exact hsub

theorem OptParser.WF.resolve {p : OptParser} (h : p.WF) (l : List Str) :
    (l.foldl OptParser.resolve1 p).WF ∧ (l.foldl OptParser.resolve1 p).nextId = p.nextId ∧
    (∀ s ∈ l, s ∉ (l.foldl OptParser.resolve1 p).strings.map (·.1)) ∧
    ∀ k ∈ (l.foldl OptParser.resolve1 p).strings.map (·.1), k ∈ p.strings.map (·.1) := by
  induction l generalizing p with
  | nil => exact ⟨h, rfl, by simp, fun _ hk => hk⟩
  | cons s l ih =>
    obtain ⟨h1, h2, h3, h4⟩ := h.resolve1 s
    obtain ⟨i1, i2, i3, i4⟩ := ih h1
    refine ⟨i1, by rw [List.foldl_cons, i2, h2], ?_, fun k hk => h4 k (i4 k hk)⟩
    intro s' hs'
    rcases List.mem_cons.1 hs' with rfl | hs'
    · exact fun hk => h3 (i4 _ hk)
    · exact i3 s' hs'

theorem mkAction_id (i : Nat) (a : Arg) : (mkAction i a).id = i := by
  unfold mkAction
  split
  · split <;> rfl
  · rfl

theorem mkAction_opts {i : Nat} {a : Arg} (h : a.Ok) :
    (mkAction i a).opts.Nodup ∧
    ∀ o ∈ (mkAction i a).opts, startsWith o c!"--" = true ∧ 2 < o.length ∧ '=' ∉ o ∧ ' ' ∉ o := by
  rcases h with ⟨n, hn, hd⟩ | ⟨_, hnd, h⟩
  · unfold mkAction
    rw [hn]
    simp [hd]
  · unfold mkAction
    split
    · rename_i n hn
      rw [hn] at h hnd
      split
      · simpa [hn] using h
      · simp
    · exact ⟨hnd, h⟩

theorem OptParser.WF.add {p : OptParser} (h : p.WF) {a : Arg} (ha : a.Ok) : (p.add a).WF := by
  unfold OptParser.add
  simp only
  obtain ⟨h1, h2, h3, _⟩ := h.resolve (mkAction p.nextId a).opts
  obtain ⟨hnd, hks⟩ := mkAction_opts (i := p.nextId) ha
  have hid := mkAction_id p.nextId a
  generalize mkAction p.nextId a = act at *
  generalize act.opts.foldl OptParser.resolve1 p = q at *
  refine ⟨?_, ?_, ?_, ?_, ?_, ?_, ?_, ?_, ?_, ?_⟩
  · intro c hc
    simp only [List.mem_append, List.mem_singleton] at hc
    rcases hc with hc | rfl
    · exact Nat.lt_succ_of_lt (h1.idlt c hc)
    · simp only; omega
  · intro kv hkv
    simp only [List.mem_append, List.mem_map] at hkv
    rcases hkv with hkv | ⟨o, _, rfl⟩
    · exact Nat.lt_succ_of_lt (h1.sidlt kv hkv)
    · simp only; omega
  · simp only [List.map_append, List.map_cons, List.map_nil]
    rw [List.nodup_append]
    refine ⟨h1.uniq, by simp, ?_⟩
    intro x hx y hy
    simp only [List.mem_singleton] at hy
    obtain ⟨c, hc, rfl⟩ := List.mem_map.1 hx
    have := h1.idlt c hc
    omega
  · intro kv hkv
    simp only [List.mem_append, List.mem_map] at hkv
    rcases hkv with hkv | ⟨o, ho, rfl⟩
    · exact h1.mem kv hkv
    · exact ho
  · intro kv hkv c hc hi
    simp only [List.mem_append, List.mem_singleton, List.mem_map] at hc hkv
    rcases hkv with hkv | ⟨o, ho, rfl⟩
    · rcases hc with hc | rfl
      · exact h1.same kv hkv c hc hi
      · have := h1.sidlt kv hkv; omega
    · rcases hc with hc | rfl
      · have := h1.idlt c hc; simp only at hi; omega
      · rfl
  · intro c hc o ho
    simp only [List.mem_append, List.mem_singleton, List.mem_map] at hc ⊢
    rcases hc with hc | rfl
    · exact Or.inl (h1.reg c hc o ho)
    · exact Or.inr ⟨o, ho, rfl⟩
  · intro kv hkv
    simp only [List.mem_append, List.mem_map] at hkv
    rcases hkv with hkv | ⟨o, ho, rfl⟩
    · exact h1.keys kv hkv
    · exact hks o ho
  · intro kv hkv kv' hkv' hi
    simp only [List.mem_append, List.mem_map] at hkv hkv'
    rcases hkv with hkv | ⟨o, ho, rfl⟩
    · rcases hkv' with hkv' | ⟨o', ho', rfl⟩
      · exact h1.sameS kv hkv kv' hkv' hi
      · have := h1.sidlt kv hkv; simp only at hi; omega
    · rcases hkv' with hkv' | ⟨o', ho', rfl⟩
      · have := h1.sidlt kv' hkv'; simp only at hi; omega
      · rfl
  · simp only [List.map_append, List.map_map]
    rw [List.nodup_append]
    have he : ((·.1) ∘ fun s => (s, act) : Str → Str) = id := rfl
    refine ⟨h1.nodup, by rw [he, List.map_id]; exact hnd, ?_⟩
    intro x hx y hy
    rw [he, List.map_id] at hy
    rintro rfl
    exact h3 x hy hx
  · intro kv hkv
    simp only [List.mem_append, List.mem_map] at hkv
    rcases hkv with hkv | ⟨o, ho, rfl⟩
    · exact h1.onodup kv hkv
    · exact hnd

theorem OptParser.WF.remove {p : OptParser} (h : p.WF) (s : Str) : (p.remove s).WF := by
  unfold OptParser.remove
  split
  · exact h
  · rename_i a ha
    have hm : a ∈ p.actions := List.mem_of_find?_eq_some ha
    have hs : s ∈ a.opts := by simpa using List.find?_some ha
    refine ⟨?_, ?_, ?_, ?_, ?_, ?_, ?_, ?_, ?_, ?_⟩
    · intro c hc; exact h.idlt c (List.mem_filter.1 hc).1
    · intro c hc; exact h.sidlt c (List.mem_filter.1 hc).1
    · exact (List.filter_sublist.map _).nodup h.uniq
    · intro c hc; exact h.mem c (List.mem_filter.1 hc).1
    · intro kv hkv c hc; exact h.same kv (List.mem_filter.1 hkv).1 c (List.mem_filter.1 hc).1
    · intro c hc o ho
      simp only [List.mem_filter, bne_iff_ne] at hc ⊢
      refine ⟨h.reg c hc.1 o ho, ?_⟩
      rintro rfl
      have := nodup_keys_inj h.nodup (h.reg c hc.1 o ho) (h.reg a hm o hs)
      exact hc.2 (by rw [this])
    · intro c hc; exact h.keys c (List.mem_filter.1 hc).1
    · intro c hc c' hc'; exact h.sameS c (List.mem_filter.1 hc).1 c' (List.mem_filter.1 hc').1
    · exact (List.filter_sublist.map _).nodup h.nodup
    · intro c hc; exact h.onodup c (List.mem_filter.1 hc).1

theorem OptParser.Built.wf {p : OptParser} (h : p.Built) : p.WF := by
  induction h with
  | empty => constructor <;> simp [OptParser.empty]
  | add _ ha ih => exact ih.add ha
  | remove s _ ih => exact ih.remove s

end Ks
