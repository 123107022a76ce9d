import Verif.ArgparseLemmas
/-!
# Classification of argument strings, canonical command lines
-/
namespace Ks

theorem startsWith_dash {s : Str} (h : startsWith s c!"--" = true) : startsWith s c!"-" = true := by
  rw [startsWith_iff] at h ⊢
  obtain ⟨t, rfl⟩ := h
  exact ⟨'-' :: t, rfl⟩

theorem startsWith_app {s p : Str} (h : startsWith s p = true) (t : Str) : startsWith (s ++ t) p = true := by
  rw [startsWith_iff] at h ⊢
  obtain ⟨u, rfl⟩ := h
  exact ⟨u ++ t, by simp⟩

section
variable {p : OptParser} (wf : p.WF) (lineno : Option Int)
include wf

theorem OptParser.WF.lookup {k : Str} {a : Action} (h : (k, a) ∈ p.strings) : p.lookup k = some a :=
  lookup_eq_some_of_mem wf.nodup h

theorem parseOptional_exact {k : Str} {a : Action} (h : (k, a) ∈ p.strings) :
    p.parseOptional lineno k = .ok (.O ⟨some a, none⟩) := by
  have hk := wf.keys _ h
  unfold OptParser.parseOptional
  rw [if_neg (by rw [startsWith_dash hk.1]; simp), wf.lookup h]

theorem lookup_eq_none_of_eq {s : Str} (h : '=' ∈ s) : p.lookup s = none := by
  unfold OptParser.lookup
  rw [lookup_eq_none_iff']
  intro hm
  obtain ⟨kv, hkv, rfl⟩ := List.mem_map.1 hm
  exact (wf.keys kv hkv).2.2.1 h

theorem parseOptional_kv {k v : Str} {a : Action} (h : (k, a) ∈ p.strings) :
    p.parseOptional lineno (k ++ '=' :: v) = .ok (.O ⟨some a, some v⟩) := by
  have hk := wf.keys _ h
  unfold OptParser.parseOptional
  rw [if_neg (by rw [startsWith_dash (startsWith_app hk.1 _)]; simp), lookup_eq_none_of_eq wf (by simp)]
  simp only
  rw [if_neg (by simp only [List.length_append, List.length_cons]; simp only at hk; omega)]
  simp only [partition_eq_append _ _ _ hk.2.2.1, if_pos, wf.lookup h]

omit wf in
theorem parseOptional_plain {s : Str} (h : startsWith s c!"-" = false) :
    p.parseOptional lineno s = .ok .A := by
  unfold OptParser.parseOptional
  rw [if_pos (by rw [h]; simp)]

/-- The rest of an option argument after its name: nothing, or `=value`. -/
def valText : Option Str → Str
  | none => []
  | some v => '=' :: v

omit wf in
theorem optionTuples_long {ab : Str} (h : startsWith ab c!"--" = true) (hne : '=' ∉ ab) (v : Option Str) :
    p.optionTuples (ab ++ valText v) =
      (p.strings.filter (fun kv => startsWith kv.1 ab)).map fun kv => ⟨some kv.2, v⟩ := by
  obtain ⟨t, rfl⟩ := startsWith_iff.1 h
  have key : ∀ (l : List (Str × Action)) (q : Str) (w : Option Str),
      l.filterMap (fun (k, a) => if startsWith k q then some (⟨some a, w⟩ : OptTuple) else none) =
      (l.filter (fun kv => startsWith kv.1 q)).map fun kv => ⟨some kv.2, w⟩ := by
    intro l q w
    induction l with
    | nil => rfl
    | cons x l ih =>
      obtain ⟨k, a⟩ := x
      by_cases hk : startsWith k q = true
      · simp [hk, ih]
      · simp [hk, ih]
  cases v with
  | none =>
    rw [valText, List.append_nil]
    have hp := partition_no_sep _ _ hne
    generalize hs : c!"--" ++ t = s at hp
    simp only [List.cons_append, List.nil_append] at hs
    rw [← hs, OptParser.optionTuples, hs]
    simp only [hp]
    exact key _ _ _
  | some v =>
    have hp := partition_eq_append '=' _ v hne
    rw [valText]
    generalize hq : c!"--" ++ t = q at hp
    generalize hs : q ++ '=' :: v = s at hp
    have hs' : s = '-' :: '-' :: (t ++ '=' :: v) := by rw [← hs, ← hq]; rfl
    rw [hs', OptParser.optionTuples, ← hs']
    simp only [hp]
    exact key _ _ _

/-- An option that is no registered name is looked up as an abbreviation. -/
theorem parseOptional_abbrev {ab : Str} (h : startsWith ab c!"--" = true) (hne : '=' ∉ ab)
    (hk : ab ∉ p.strings.map (·.1)) (v : Option Str) :
    p.parseOptional lineno (ab ++ valText v) =
      match p.strings.filter (fun kv => startsWith kv.1 ab) with
      | _ :: _ :: _ => .error (argErr c!"ambiguous option" lineno)
      | [kv] => .ok (.O ⟨some kv.2, v⟩)
      | [] => if ' ' ∈ ab ++ valText v then .ok .A else .ok (.O ⟨none, none⟩) := by
  have hlk : p.lookup ab = none := lookup_eq_none_iff'.2 hk
  have hlen : ¬ (ab ++ valText v).length = 1 := by
    obtain ⟨t, rfl⟩ := startsWith_iff.1 h
    simp
  have hneg : negNumber (ab ++ valText v) = false := by
    obtain ⟨t, rfl⟩ := startsWith_iff.1 h
    unfold negNumber
    have : ∃ u, Version.dropFinalNl (c!"--" ++ t ++ valText v) = '-' :: u ∧ (u = [] ∨ ∃ w, u = '-' :: w) := by
      unfold Version.dropFinalNl
      split
      · simp only [List.cons_append, List.nil_append]
        generalize t ++ valText v = u
        cases u with
        | nil => exact ⟨[], rfl, Or.inl rfl⟩
        | cons c u => exact ⟨_, rfl, Or.inr ⟨_, rfl⟩⟩
      · exact ⟨_, rfl, Or.inr ⟨_, rfl⟩⟩
    obtain ⟨u, hu, hw⟩ := this
    rw [hu]
    rcases hw with rfl | ⟨w, rfl⟩
    · rfl
    · have : isDigit '-' = false := by decide
      simp [this]
  unfold OptParser.parseOptional
  rw [if_neg (by rw [startsWith_dash (startsWith_app h _)]; simp)]
  have h1 : p.lookup (ab ++ valText v) = none := by
    cases v with
    | none => simpa [valText] using hlk
    | some v => exact lookup_eq_none_of_eq wf (by simp [valText])
  rw [h1]
  simp only
  rw [if_neg hlen]
  have h2 : (if (partition '=' (ab ++ valText v)).2.1 = true then p.lookup (partition '=' (ab ++ valText v)).1 else none) = none := by
    cases v with
    | none => simp only [valText, List.append_nil, partition_no_sep _ _ hne]; rfl
    | some v => simp only [valText, partition_eq_append _ _ _ hne, if_pos, hlk]
  simp only [h2, optionTuples_long h hne v]
  cases p.strings.filter (fun kv => startsWith kv.1 ab) with
  | nil => simp [hneg]
  | cons x l =>
    cases l with
    | nil => rfl
    | cons y l => rfl

end

theorem classify_append (p : OptParser) (lineno : Option Int) (l1 l2 : List Str) (h : c!"--" ∉ l1) :
    p.classify lineno (l1 ++ l2) =
      match p.classify lineno l1 with
      | .error e => .error e
      | .ok c1 => match p.classify lineno l2 with
        | .error e => .error e
        | .ok c2 => .ok (c1 ++ c2) := by
  induction l1 with
  | nil =>
    simp only [List.nil_append, OptParser.classify]
    cases p.classify lineno l2 <;> rfl
  | cons a t ih =>
    simp only [List.mem_cons, not_or] at h
    have ha : ¬ a = c!"--" := fun e => h.1 e.symm
    simp only [List.cons_append, OptParser.classify, if_neg ha, ih h.2]
    cases p.parseOptional lineno a with
    | error e => rfl
    | ok c =>
      simp only
      cases p.classify lineno t with
      | error e => rfl
      | ok c1 =>
        simp only
        cases p.classify lineno l2 <;> rfl

theorem classify_cons (p : OptParser) (lineno : Option Int) (a : Str) (l : List Str) (h : a ≠ c!"--") :
    p.classify lineno (a :: l) =
      match p.parseOptional lineno a with
      | .error e => .error e
      | .ok c => match p.classify lineno l with
        | .error e => .error e
        | .ok cs => .ok ((a, c) :: cs) := by
  rw [OptParser.classify, if_neg h]
  rfl

/-! ## Unknown options end up in the extras -/

def IsUnknown (x : Str × Cls) : Prop := ∃ e, x.2 = .O ⟨none, e⟩

theorem mem_drop_of_not_take {α : Type} {l : List α} {k : Nat} {x : α} (h : x ∈ l) (hn : x ∉ l.take k) :
    x ∈ l.drop k := by
  rw [← List.take_append_drop k l] at h
  rcases List.mem_append.1 h with h | h
  · exact (hn h).elim
  · exact h

theorem take_takeWhile_mem {α : Type} {l : List α} {f : α → Bool} {k : Nat} (hk : k ≤ (l.takeWhile f).length) :
    ∀ x ∈ l.take k, f x = true := by
  induction l generalizing k with
  | nil => simp
  | cons a t ih =>
    by_cases ha : f a = true
    · simp only [List.takeWhile_cons, ha, if_true, List.length_cons] at hk
      cases k with
      | zero => simp
      | succ k =>
        intro x hx
        rcases List.mem_cons.1 hx with rfl | hx
        · exact ha
        · exact ih (by omega) x hx
    · simp only [List.takeWhile_cons, ha] at hk
      have : k = 0 := by simpa using hk
      subst this
      simp

theorem parseLoop_unknown {lineno : Option Int} {f : Nat} {st : LoopSt} {rest : Args} (hf : rest.length < f)
    (hu : ∃ x ∈ rest, IsUnknown x) {st' : LoopSt} {rest' : Args}
    (h : parseLoop lineno f st rest = .ok (st', rest')) : st'.extras ≠ [] := by
  refine parseLoop_inv (fun st rest => st.extras ≠ [] ∨ ∃ x ∈ rest, IsUnknown x) (fun st _ => st.extras ≠ [])
    ?_ ?_ ?_ ?_ f st rest hf (Or.inr hu) h
  · intro st s t tl st1 rest1 hP hc
    obtain ⟨⟨k, hk, hr⟩, hcase, _⟩ := consumeOptional_ok hc
    rcases hcase with ⟨_, he, _⟩ | ⟨a, ha, he, _⟩
    · left; rw [he]; simp
    · rcases hP with hP | ⟨x, hx, e, hxe⟩
      · left; rw [he]; exact hP
      · right
        rcases List.mem_cons.1 hx with rfl | hx
        · simp only [Cls.O.injEq] at hxe
          subst hxe; cases ha
        · refine ⟨x, ?_, e, hxe⟩
          rw [hr]
          refine mem_drop_of_not_take hx fun hx' => ?_
          have := take_takeWhile_mem hk x hx'
          simp [hxe, Cls.isA] at this
  · intro st pre tl hpre hP
    rcases hP with hP | ⟨x, hx, e, hxe⟩
    · left; simp [hP]
    · rcases List.mem_append.1 hx with hx | hx
      · have := hpre x hx
        simp [hxe, Cls.isO] at this
      · right; exact ⟨x, hx, e, hxe⟩
  · intro st rest st1 rest1 hP hc
    obtain ⟨he, ⟨k, hk, hr⟩, _⟩ := consumePositionals_ok hc
    rcases hP with hP | ⟨x, hx, e, hxe⟩
    · left; rw [he]; exact hP
    · right
      refine ⟨x, ?_, e, hxe⟩
      rw [hr]
      refine mem_drop_of_not_take hx fun hx' => ?_
      have := take_takeWhile_mem hk x hx'
      simp [hxe, Cls.isO] at this
  · intro st rest hO hP
    rcases hP with hP | ⟨x, hx, e, hxe⟩
    · exact hP
    · have := hO x hx
      simp [hxe, Cls.isO] at this

/-! ## Which actions have been seen -/

theorem takePositionals_seen {lineno : Option Int} {as : List Action} {ks : List Nat} {st st' : LoopSt}
    {rest rest' : Args} (h : takePositionals lineno as ks st rest = .ok (st', rest')) :
    ∀ i ∈ st'.seen, i ∈ st.seen ∨ ∃ a ∈ as, a.id = i := by
  induction as generalizing ks st rest with
  | nil =>
    simp only [takePositionals, Except.ok.injEq, Prod.mk.injEq] at h
    intro i hi; left; rw [h.1]; exact hi
  | cons a as ih =>
    cases ks with
    | nil =>
      simp only [takePositionals, Except.ok.injEq, Prod.mk.injEq] at h
      intro i hi; left; rw [h.1]; exact hi
    | cons k ks =>
      simp only [takePositionals] at h
      split at h
      · cases h
      · intro i hi
        rcases ih h i hi with h1 | ⟨b, hb, he⟩
        · rcases List.mem_cons.1 h1 with rfl | h1
          · right; exact ⟨a, by simp, rfl⟩
          · left; exact h1
        · right; exact ⟨b, by simp [hb], he⟩

theorem parseLoop_seen {lineno : Option Int} {f : Nat} {st : LoopSt} {rest : Args} (hf : rest.length < f)
    {st' : LoopSt} {rest' : Args} (h : parseLoop lineno f st rest = .ok (st', rest')) :
    ∀ i ∈ st'.seen, i ∈ st.seen ∨ (∃ a ∈ st.positionals, a.id = i) ∨
      ∃ s t a, (s, Cls.O t) ∈ rest ∧ t.action = some a ∧ a.id = i := by
  refine parseLoop_inv
    (fun st1 rest1 => (∀ i ∈ st1.seen, i ∈ st.seen ∨ (∃ a ∈ st.positionals, a.id = i) ∨
        ∃ s t a, (s, Cls.O t) ∈ rest ∧ t.action = some a ∧ a.id = i) ∧
        (∀ a ∈ st1.positionals, a ∈ st.positionals) ∧ ∀ x ∈ rest1, x ∈ rest)
    (fun st1 _ => ∀ i ∈ st1.seen, i ∈ st.seen ∨ (∃ a ∈ st.positionals, a.id = i) ∨
        ∃ s t a, (s, Cls.O t) ∈ rest ∧ t.action = some a ∧ a.id = i)
    ?_ ?_ ?_ ?_ f st rest hf ⟨fun i hi => Or.inl hi, fun _ h => h, fun _ h => h⟩ h
  · intro st0 s t tl st1 rest1 ⟨hP, hpos, hsub⟩ hc
    obtain ⟨⟨k, _, hr⟩, hcase, hpe⟩ := consumeOptional_ok hc
    refine ⟨?_, by rw [hpe]; exact hpos, fun x hx => hsub x (by
      rw [hr] at hx; exact List.mem_cons_of_mem _ (List.mem_of_mem_drop hx))⟩
    rcases hcase with ⟨_, _, hs, _⟩ | ⟨a, ha, _, hs⟩
    · rw [hs]; exact hP
    · rw [hs]
      intro i hi
      rcases List.mem_cons.1 hi with rfl | hi
      · exact Or.inr (Or.inr ⟨s, t, a, hsub _ (by simp), ha, rfl⟩)
      · exact hP i hi
  · intro st0 pre tl _ ⟨hP, hpos, hsub⟩
    exact ⟨hP, hpos, fun x hx => hsub x (by simp [hx])⟩
  · intro st0 rest0 st1 rest1 ⟨hP, hpos, hsub⟩ hc
    obtain ⟨_, ⟨k, _, hr⟩, n, hn⟩ := consumePositionals_ok hc
    refine ⟨?_, fun a ha => hpos a (by rw [hn] at ha; exact List.mem_of_mem_drop ha),
      fun x hx => hsub x (by rw [hr] at hx; exact List.mem_of_mem_drop hx)⟩
    unfold consumePositionals at hc
    simp only at hc
    split at hc
    · cases hc
    · rename_i st2 rest2 ht
      simp only [Except.ok.injEq, Prod.mk.injEq] at hc
      intro i hi
      rw [← hc.1] at hi
      rcases takePositionals_seen ht i hi with h1 | ⟨a, ha, he⟩
      · exact hP i h1
      · exact Or.inr (Or.inl ⟨a, hpos a ha, he⟩)
  · intro st0 rest0 _ hP
    exact hP.1

theorem finish_missing {lineno : Option Int} {seen : List Nat} {as : List Action} {ns ns' : Ns} {m : Bool}
    (h : finish lineno seen as ns m = .ok (ns', false)) :
    m = false ∧ ∀ a ∈ as, a.required = true → a.id ∈ seen := by
  induction as generalizing ns m with
  | nil =>
    simp only [finish, Except.ok.injEq, Prod.mk.injEq] at h
    simp [h.2]
  | cons a as ih =>
    rw [finish] at h
    split at h
    · rename_i hs
      obtain ⟨h1, h2⟩ := ih h
      refine ⟨h1, fun b hb hr => ?_⟩
      rcases List.mem_cons.1 hb with rfl | hb
      · exact hs
      · exact h2 b hb hr
    · split at h
      · have := (ih h).1; simp at this
      · rename_i hr
        have : ∃ ns m', finish lineno seen as ns m' = .ok (ns', false) ∧ m' = m := by
          split at h
          · split at h
            · split at h
              · cases h
              · exact ⟨_, _, h, rfl⟩
            · exact ⟨_, _, h, rfl⟩
          · exact ⟨_, _, h, rfl⟩
        obtain ⟨_, _, h', rfl⟩ := this
        obtain ⟨h1, h2⟩ := ih h'
        refine ⟨h1, fun b hb hrb => ?_⟩
        rcases List.mem_cons.1 hb with rfl | hb
        · exact (hr hrb).elim
        · exact h2 b hb hrb

/-! ## The spelling of a recognised option does not matter -/

/-- Forget the spelling of recognised options. -/
def blank : Str × Cls → Str × Cls
  | (_, .O ⟨some a, e⟩) => ([], .O ⟨some a, e⟩)
  | x => x

theorem blank_snd (x : Str × Cls) : (blank x).2 = x.2 := by
  unfold blank; split <;> rfl

theorem blank_notO {x : Str × Cls} (h : x.2.isO = false) : blank x = x := by
  obtain ⟨s, c⟩ := x
  cases c with
  | O t => simp [Cls.isO] at h
  | _ => rfl

theorem map_blank_notO {l : Args} (h : ∀ x ∈ l, x.2.isO = false) : l.map blank = l := by
  induction l with
  | nil => rfl
  | cons a t ih =>
    rw [List.map_cons, blank_notO (h a (by simp)), ih (fun x hx => h x (by simp [hx]))]

theorem takeWhile_map_blank (f : Cls → Bool) (l : Args) :
    (l.map blank).takeWhile (fun x => f x.2) = (l.takeWhile (fun x => f x.2)).map blank := by
  rw [List.takeWhile_map]
  congr 1
  congr 1
  funext x
  simp only [Function.comp, blank_snd]

theorem dropWhile_map_blank (f : Cls → Bool) (l : Args) :
    (l.map blank).dropWhile (fun x => f x.2) = (l.dropWhile (fun x => f x.2)).map blank := by
  rw [List.dropWhile_map]
  congr 1
  congr 1
  funext x
  simp only [Function.comp, blank_snd]

theorem preLen_blank (l : Args) : preLen (l.map blank) = preLen l := by
  unfold preLen
  rw [takeWhile_map_blank (fun c => !c.isO), List.length_map]

theorem candN_blank (n : Nat) (l : Args) : candN n (l.map blank) = candN n l := by
  induction n generalizing l with
  | zero => simp only [candN]; rw [takeWhile_map_blank Cls.isDash, List.length_map]
  | succ n ih =>
    simp only [candN]
    rw [takeWhile_map_blank Cls.isDash, List.length_map, dropWhile_map_blank Cls.isDash]
    cases l.dropWhile (fun x => x.2.isDash) with
    | nil => rfl
    | cons x t =>
      obtain ⟨s, c⟩ := x
      cases c with
      | A => simp only [List.map_cons, blank, ih]
      | dash => rfl
      | O t' =>
        obtain ⟨a, e⟩ := t'
        cases a <;> rfl

theorem candidates_blank (n : Nargs) (l : Args) : candidates n (l.map blank) = candidates n l := by
  cases n with
  | one => exact candN_blank 1 l
  | n k => exact candN_blank k l
  | star =>
    simp only [candidates]
    rw [takeWhile_map_blank (fun c => c.isA || c.isDash), List.length_map]
  | opt =>
    simp only [candidates]
    rw [takeWhile_map_blank Cls.isDash, List.length_map, candN_blank]

theorem matchAll_blank (ns : List Nargs) (l : Args) : matchAll ns (l.map blank) = matchAll ns l := by
  induction ns generalizing l with
  | nil => rfl
  | cons n ns ih =>
    simp only [matchAll, candidates_blank]
    congr 1
    funext k
    rw [← List.map_drop, ih]

theorem matchPartial_blank (ns : List Nargs) (l : Args) : matchPartial ns (l.map blank) = matchPartial ns l := by
  unfold matchPartial
  generalize ns.length = i
  induction i with
  | zero => rfl
  | succ i ih => simp only [matchPartial.go, matchAll_blank, ih]

theorem take_pre_blank {l : Args} {k : Nat} (h : k ≤ preLen l) : (l.map blank).take k = l.take k := by
  rw [← List.map_take]
  apply map_blank_notO
  intro x hx
  have := take_takeWhile_mem h x hx
  simpa using this

theorem takePositionals_blank (lineno : Option Int) (as : List Action) (ks : List Nat) (st : LoopSt) (l : Args)
    (h : ks.sum ≤ preLen l) :
    takePositionals lineno as ks st (l.map blank) =
      (takePositionals lineno as ks st l).map fun r => (r.1, r.2.map blank) := by
  induction as generalizing ks st l with
  | nil => simp [takePositionals, Except.map]
  | cons a as ih =>
    cases ks with
    | nil => simp [takePositionals, Except.map]
    | cons k ks =>
      simp only [List.sum_cons] at h
      simp only [takePositionals]
      rw [take_pre_blank (by omega), ← List.map_drop]
      split
      · rfl
      · apply ih
        have := preLen_drop (p := l) (k := k) (by omega)
        omega

theorem consumePositionals_blank (lineno : Option Int) (st : LoopSt) (l : Args) :
    consumePositionals lineno st (l.map blank) =
      (consumePositionals lineno st l).map fun r => (r.1, r.2.map blank) := by
  unfold consumePositionals
  simp only [matchPartial_blank]
  rw [takePositionals_blank _ _ _ _ _ (matchPartial_le _ _).1]
  cases takePositionals lineno st.positionals (matchPartial (st.positionals.map (·.nargs)) l) st l <;> rfl

theorem matchOptional_blank (n : Nargs) (l : Args) : matchOptional n (l.map blank) = matchOptional n l := by
  unfold matchOptional
  rw [takeWhile_map_blank Cls.isA, List.length_map]

theorem matchOptional_le {n : Nargs} {l : Args} {k : Nat} (h : matchOptional n l = some k) : k ≤ preLen l := by
  have : (l.takeWhile (·.2.isA)).length ≤ preLen l := takeWhile_length_le Cls.notO_of_isA l
  unfold matchOptional at h
  simp only at h
  split at h
  · split at h
    · injection h with h; omega
    · cases h
  · injection h with h; omega
  · injection h with h; omega
  · split at h
    · injection h with h; omega
    · cases h

theorem consumeOptional_blank (lineno : Option Int) (st : LoopSt) (s : Str) (t : OptTuple) (l : Args) :
    consumeOptional lineno st (blank (s, .O t)).1 t (l.map blank) =
      (consumeOptional lineno st s t l).map fun r => (r.1, r.2.map blank) := by
  obtain ⟨a, e⟩ := t
  cases a with
  | none => rfl
  | some a =>
    unfold consumeOptional
    simp only [matchOptional_blank]
    cases e with
    | some v =>
      simp only
      split
      · split <;> rfl
      · rfl
      · rfl
    | none =>
      simp only
      split
      · rfl
      · rename_i k hk
        rw [take_pre_blank (matchOptional_le hk), ← List.map_drop]
        split <;> rfl

theorem parseLoop_blank (lineno : Option Int) (f : Nat) (st : LoopSt) (l : Args) :
    parseLoop lineno f st (l.map blank) = (parseLoop lineno f st l).map fun r => (r.1, r.2.map blank) := by
  induction f generalizing st l with
  | zero => rfl
  | succ f ih =>
    rw [parseLoop, parseLoop]
    cases hs : splitO l with
    | none =>
      have h := splitO_none hs
      rw [splitO_eq_none (p := l.map blank) (by
        intro x hx
        obtain ⟨y, hy, rfl⟩ := List.mem_map.1 hx
        rw [blank_snd]; exact h y hy)]
      exact consumePositionals_blank lineno st l
    | some r =>
      obtain ⟨pre, s, t, tl⟩ := r
      obtain ⟨hl, hpre⟩ := splitO_some hs
      have hs' : splitO (l.map blank) = some (pre, (blank (s, .O t)).1, t, tl.map blank) := by
        rw [hl, List.map_append, List.map_cons, map_blank_notO hpre]
        have : blank (s, .O t) = ((blank (s, .O t)).1, .O t) := Prod.ext rfl (blank_snd _)
        rw [this]
        exact splitO_append hpre
      rw [hs']
      simp only
      split
      · rw [consumeOptional_blank]
        cases consumeOptional lineno st s t tl with
        | error e => rfl
        | ok r => exact ih _ _
      · rw [consumePositionals_blank]
        cases consumePositionals lineno st l with
        | error e => rfl
        | ok r =>
          obtain ⟨st1, rest1⟩ := r
          simp only [Except.map, List.length_map]
          split
          · exact ih _ _
          · rw [consumeOptional_blank]
            cases consumeOptional lineno { st1 with extras := st1.extras ++ pre.map (·.1) } s t tl with
            | error e => rfl
            | ok r => exact ih _ _

theorem parseLoop_rest {lineno : Option Int} {f : Nat} {st : LoopSt} {rest : Args} (hf : rest.length < f)
    {st' : LoopSt} {rest' : Args} (h : parseLoop lineno f st rest = .ok (st', rest')) :
    ∀ x ∈ rest', x.2.isO = false :=
  parseLoop_inv (fun _ _ => True) (fun _ r => ∀ x ∈ r, x.2.isO = false)
    (fun _ _ _ _ _ _ _ _ => trivial) (fun _ _ _ _ _ => trivial) (fun _ _ _ _ _ _ => trivial)
    (fun _ _ h _ => h) f st rest hf trivial h

/-- Equal up to the spelling of recognised options means equal results. -/
theorem parseLoop_congr {lineno : Option Int} {f : Nat} {st : LoopSt} {l l' : Args} (hf : l.length < f)
    (h : l.map blank = l'.map blank) : parseLoop lineno f st l = parseLoop lineno f st l' := by
  have hf' : l'.length < f := by
    have := congrArg List.length h
    simp only [List.length_map] at this
    omega
  have h1 := parseLoop_blank lineno f st l
  rw [h, parseLoop_blank lineno f st l'] at h1
  cases e1 : parseLoop lineno f st l with
  | error e =>
    rw [e1] at h1
    cases e2 : parseLoop lineno f st l' with
    | error e' => rw [e2] at h1; injection h1 with h1; rw [h1]
    | ok r => rw [e2] at h1; cases h1
  | ok r =>
    rw [e1] at h1
    cases e2 : parseLoop lineno f st l' with
    | error e' => rw [e2] at h1; cases h1
    | ok r' =>
      rw [e2] at h1
      obtain ⟨s1, r1⟩ := r
      obtain ⟨s2, r2⟩ := r'
      simp only [Except.map, Except.ok.injEq, Prod.mk.injEq] at h1
      have hr1 := map_blank_notO (parseLoop_rest hf e1)
      have hr2 := map_blank_notO (parseLoop_rest hf' e2)
      rw [hr1, hr2] at h1
      rw [h1.1, h1.2]

/-! ## Canonical command lines: words, then `--option` / `--option=value` -/

/-- One option as a user writes it. -/
structure Tok where
  name : Str
  val : Option Str := none
  deriving DecidableEq

def Tok.text (t : Tok) : Str := t.name ++ valText t.val

/-- The option is registered and takes a value iff one is given. -/
def Tok.Fits (p : OptParser) (t : Tok) : Prop :=
  ∃ a, (t.name, a) ∈ p.strings ∧
    matchOptional a.nargs (t.val.toList.map fun v => (v, Cls.A)) = some t.val.toList.length

/-- Perform the options one after the other. -/
def runToks (p : OptParser) (lineno : Option Int) : List Tok → Ns → Except Exc Ns
  | [], ns => .ok ns
  | t :: ts, ns =>
    match p.lookup t.name with
    | none => .error .key
    | some a =>
      match takeAction lineno a t.val.toList ns with
      | .error e => .error e
      | .ok ns => runToks p lineno ts ns

def tokIds (p : OptParser) (ts : List Tok) : List Nat := ts.filterMap fun t => (p.lookup t.name).map (·.id)

def tokCls (p : OptParser) (t : Tok) : Str × Cls := (t.text, .O ⟨p.lookup t.name, t.val⟩)

section
variable {p : OptParser} (wf : p.WF) (lineno : Option Int)
include wf

theorem Tok.Fits.text_ne {t : Tok} (h : t.Fits p) : t.text ≠ c!"--" := by
  obtain ⟨a, ha, _⟩ := h
  have hk := (wf.keys _ ha).2.1
  intro e
  have := congrArg List.length e
  simp only [Tok.text, List.length_append, List.length_cons, List.length_nil] at this hk
  omega

theorem parseOptional_tok {t : Tok} (h : t.Fits p) : p.parseOptional lineno t.text = .ok (tokCls p t).2 := by
  obtain ⟨a, ha, _⟩ := h
  simp only [tokCls, wf.lookup ha, Tok.text]
  cases hv : t.val with
  | none => simp only [valText, List.append_nil]; exact parseOptional_exact wf lineno ha
  | some v => exact parseOptional_kv wf lineno ha

theorem classify_toks {ts : List Tok} (h : ∀ t ∈ ts, t.Fits p) :
    p.classify lineno (ts.map Tok.text) = .ok (ts.map (tokCls p)) := by
  induction ts with
  | nil => rfl
  | cons t ts ih =>
    have ht := h t (by simp)
    rw [List.map_cons, classify_cons _ _ _ _ (ht.text_ne wf), parseOptional_tok wf lineno ht,
      ih (fun t ht => h t (by simp [ht]))]
    rfl

theorem parseLoop_toks {f : Nat} {ts : List Tok} (hf : ts.length < f) (h : ∀ t ∈ ts, t.Fits p) (st : LoopSt) :
    parseLoop lineno f st (ts.map (tokCls p)) =
      match runToks p lineno ts st.ns with
      | .error e => .error e
      | .ok ns => consumePositionals lineno { st with ns := ns, seen := (tokIds p ts).reverse ++ st.seen } [] := by
  induction ts generalizing f st with
  | nil =>
    cases f with
    | zero => simp at hf
    | succ f => simp [parseLoop, splitO, runToks, tokIds]
  | cons t ts ih =>
    cases f with
    | zero => simp at hf
    | succ f =>
      obtain ⟨a, ha, hm⟩ := h t (by simp)
      have hl := wf.lookup ha
      rw [parseLoop, List.map_cons]
      rw [show tokCls p t = (t.text, .O ⟨p.lookup t.name, t.val⟩) from rfl]
      simp only [splitO, if_pos]
      have hc : consumeOptional lineno st t.text ⟨p.lookup t.name, t.val⟩ (ts.map (tokCls p)) =
          match takeAction lineno a t.val.toList st.ns with
          | .error e => .error e
          | .ok ns => .ok ({ st with ns := ns, seen := a.id :: st.seen }, ts.map (tokCls p)) := by
        unfold consumeOptional
        simp only [hl]
        cases hv : t.val with
        | some v =>
          rw [hv] at hm
          simp only [Option.toList, List.map_cons, List.map_nil, List.length_cons, List.length_nil] at hm ⊢
          rw [hm]
          rfl
        | none =>
          rw [hv] at hm
          simp only [Option.toList, List.map_nil, List.length_nil] at hm ⊢
          have : matchOptional a.nargs (ts.map (tokCls p)) = some 0 := by
            rw [← hm]
            cases ts with
            | nil => rfl
            | cons t' ts' =>
              unfold matchOptional
              rw [List.map_cons, show tokCls p t' = (t'.text, .O ⟨p.lookup t'.name, t'.val⟩) from rfl]
              rfl
          rw [this]
          simp only [List.take_zero, List.map_nil, List.drop_zero]
          rfl
      rw [hc]
      simp only [runToks, hl]
      cases takeAction lineno a t.val.toList st.ns with
      | error e => rfl
      | ok ns =>
        simp only
        rw [ih (by simpa using hf) (fun t ht => h t (by simp [ht]))]
        have : tokIds p (t :: ts) = a.id :: tokIds p ts := by
          simp [tokIds, hl]
        simp only [this, List.reverse_cons, List.append_assoc, List.cons_append, List.nil_append]

end

/-! ### Words before the options -/

/-- The positional words are handed out before the first option is looked at. -/
def posLoop (lineno : Option Int) : Nat → LoopSt → Args → Except Exc LoopSt
  | 0, st, _ => .ok st
  | f + 1, st, pos =>
    if pos = [] then .ok st
    else
      match consumePositionals lineno st pos with
      | .error e => .error e
      | .ok (st', pos') =>
        if pos'.length < pos.length then posLoop lineno f st' pos'
        else .ok { st' with extras := st'.extras ++ pos.map (·.1) }

theorem takeWhile_append_of_last {α : Type} (f : α → Bool) (l : List α) (x : α) (r : List α) (h : f x = false) :
    (l ++ x :: r).takeWhile f = l.takeWhile f := by
  induction l with
  | nil => simp [h]
  | cons a t ih => by_cases ha : f a = true <;> simp [ha, ih]

theorem dropWhile_append_of_last {α : Type} (f : α → Bool) (l : List α) (x : α) (r : List α) (h : f x = false) :
    (l ++ x :: r).dropWhile f = l.dropWhile f ++ x :: r := by
  induction l with
  | nil => simp [h]
  | cons a t ih => by_cases ha : f a = true <;> simp [ha, ih]

section
variable (s : Str) (t : OptTuple) (r : Args)

theorem candN_append (n : Nat) (l : Args) : candN n (l ++ (s, .O t) :: r) = candN n l := by
  induction n generalizing l with
  | zero => simp only [candN]; rw [takeWhile_append_of_last _ _ _ _ rfl]
  | succ n ih =>
    simp only [candN]
    rw [takeWhile_append_of_last _ _ _ _ rfl, dropWhile_append_of_last _ _ _ _ rfl]
    cases l.dropWhile (fun x => x.2.isDash) with
    | nil => rfl
    | cons x u =>
      obtain ⟨s', c⟩ := x
      cases c with
      | A => simp only [List.cons_append, ih]
      | dash => rfl
      | O t' => rfl

theorem candidates_append (n : Nargs) (l : Args) : candidates n (l ++ (s, .O t) :: r) = candidates n l := by
  cases n with
  | one => exact candN_append s t r 1 l
  | n k => exact candN_append s t r k l
  | star =>
    simp only [candidates]
    rw [takeWhile_append_of_last _ _ _ _ rfl]
  | opt =>
    simp only [candidates]
    rw [takeWhile_append_of_last _ _ _ _ rfl, candN_append]

theorem preLen_le_length (l : Args) : preLen l ≤ l.length := by
  unfold preLen
  exact List.Sublist.length_le (List.takeWhile_sublist _)

theorem findSome?_congr {α β : Type} {l : List α} {f g : α → Option β} (h : ∀ x ∈ l, f x = g x) :
    l.findSome? f = l.findSome? g := by
  induction l with
  | nil => rfl
  | cons a t ih =>
    simp only [List.findSome?_cons, h a (by simp), ih (fun x hx => h x (by simp [hx]))]

theorem matchAll_append (ns : List Nargs) (l : Args) : matchAll ns (l ++ (s, .O t) :: r) = matchAll ns l := by
  induction ns generalizing l with
  | nil => rfl
  | cons n ns ih =>
    simp only [matchAll, candidates_append]
    apply findSome?_congr
    intro k hk
    have hk : k ≤ l.length := Nat.le_trans (candidates_le n l k hk) (preLen_le_length l)
    rw [List.drop_append_of_le_length hk, ih]

theorem matchPartial_append (ns : List Nargs) (l : Args) :
    matchPartial ns (l ++ (s, .O t) :: r) = matchPartial ns l := by
  unfold matchPartial
  generalize ns.length = i
  induction i with
  | zero => rfl
  | succ i ih => simp only [matchPartial.go, matchAll_append, ih]

theorem takePositionals_append (lineno : Option Int) (as : List Action) (ks : List Nat) (st : LoopSt) (l : Args)
    (h : ks.sum ≤ l.length) :
    takePositionals lineno as ks st (l ++ r) =
      (takePositionals lineno as ks st l).map fun x => (x.1, x.2 ++ r) := by
  induction as generalizing ks st l with
  | nil => simp [takePositionals, Except.map]
  | cons a as ih =>
    cases ks with
    | nil => simp [takePositionals, Except.map]
    | cons k ks =>
      simp only [List.sum_cons] at h
      simp only [takePositionals]
      rw [List.take_append_of_le_length (by omega), List.drop_append_of_le_length (by omega)]
      split
      · rfl
      · apply ih
        rw [List.length_drop]
        omega

theorem consumePositionals_append (lineno : Option Int) (st : LoopSt) (l : Args) :
    consumePositionals lineno st (l ++ (s, .O t) :: r) =
      (consumePositionals lineno st l).map fun x => (x.1, x.2 ++ (s, .O t) :: r) := by
  unfold consumePositionals
  simp only [matchPartial_append]
  rw [takePositionals_append _ _ _ _ _ _ (Nat.le_trans (matchPartial_le _ _).1 (preLen_le_length _))]
  cases takePositionals lineno st.positionals (matchPartial (st.positionals.map (·.nargs)) l) st l <;> rfl

theorem parseLoop_pos (lineno : Option Int) (f : Nat) (st : LoopSt) (pos : Args)
    (hpos : ∀ x ∈ pos, x.2.isO = false) (hf : (pos ++ (s, .O t) :: r).length < f) :
    parseLoop lineno f st (pos ++ (s, .O t) :: r) =
      match posLoop lineno (pos.length + 1) st pos with
      | .error e => .error e
      | .ok st' => parseLoop lineno f st' ((s, .O t) :: r) := by
  -- enough fuel gives the same result
  have fuel : ∀ (f g : Nat) (st : LoopSt) (l : Args), l.length < f → f ≤ g →
      parseLoop lineno g st l = parseLoop lineno f st l := by
    intro f g st l hl hfg
    induction g with
    | zero => have : f = 0 := by omega
              rw [this]
    | succ g ih =>
      by_cases he : f = g + 1
      · rw [he]
      · rw [parseLoop_fuel _ _ _ _ (by omega), ih (by omega)]
  have main : ∀ (n : Nat) (f : Nat) (st : LoopSt) (pos : Args), pos.length < n → (∀ x ∈ pos, x.2.isO = false) →
      (pos ++ (s, .O t) :: r).length < f →
      parseLoop lineno f st (pos ++ (s, .O t) :: r) =
      match posLoop lineno n st pos with
      | .error e => .error e
      | .ok st' => parseLoop lineno f st' ((s, .O t) :: r) := by
    intro n
    induction n with
    | zero => intro f st pos h; omega
    | succ n ih =>
      intro f st pos hn hpos hf
      rw [posLoop]
      by_cases hp : pos = []
      · rw [if_pos hp, hp]; rfl
      · rw [if_neg hp]
        cases f with
        | zero => omega
        | succ f =>
          rw [parseLoop, splitO_append hpos]
          simp only [if_neg hp]
          rw [consumePositionals_append]
          cases hc : consumePositionals lineno st pos with
          | error e => rfl
          | ok x =>
            obtain ⟨st1, pos1⟩ := x
            obtain ⟨_, ⟨k, hk, hd⟩, _⟩ := consumePositionals_ok hc
            simp only [Except.map, List.length_append, List.length_cons] at hf ⊢
            by_cases hlt : pos1.length < pos.length
            · rw [if_pos (by omega), if_pos hlt]
              rw [ih f st1 pos1 (by omega) (fun x hx => hpos x (by rw [hd] at hx; exact List.mem_of_mem_drop hx))
                (by simp only [List.length_append, List.length_cons]; omega)]
              split
              · rfl
              · exact (fuel f (f + 1) _ _ (by simp; omega) (by omega)).symm
            · rw [if_neg (by omega), if_neg hlt]
              simp only
              rw [parseLoop, splitO]
              simp only [if_pos]
  exact main _ f st pos (by omega) hpos hf

end

/-! ### What a canonical line computes -/

/-- The loop's result on a canonical line. -/
def canonLoop (p : OptParser) (lineno : Option Int) (pos : List Str) (ts : List Tok) : Except Exc (LoopSt × Args) :=
  if ts = [] then consumePositionals lineno p.initSt (pos.map fun w => (w, .A))
  else
    match posLoop lineno (pos.length + 1) p.initSt (pos.map fun w => (w, .A)) with
    | .error e => .error e
    | .ok st =>
      match runToks p lineno ts st.ns with
      | .error e => .error e
      | .ok ns => consumePositionals lineno { st with ns := ns, seen := (tokIds p ts).reverse ++ st.seen } []

theorem classify_pos (p : OptParser) (lineno : Option Int) {pos : List Str}
    (h : ∀ w ∈ pos, startsWith w c!"-" = false) (rest : List Str) :
    p.classify lineno (pos ++ rest) =
      (p.classify lineno rest).map fun cs => pos.map (fun w => (w, Cls.A)) ++ cs := by
  induction pos with
  | nil => simp only [List.nil_append, List.map_nil]; cases p.classify lineno rest <;> rfl
  | cons w pos ih =>
    have hw := h w (by simp)
    have : w ≠ c!"--" := by rintro rfl; simp [startsWith] at hw
    rw [List.cons_append, classify_cons _ _ _ _ this, parseOptional_plain _ hw, ih (fun w hw => h w (by simp [hw]))]
    cases p.classify lineno rest <;> rfl

theorem parseKnown_canon {p : OptParser} (wf : p.WF) (lineno : Option Int) {pos : List Str}
    (hpos : ∀ w ∈ pos, startsWith w c!"-" = false) {ts : List Tok} (h : ∀ t ∈ ts, t.Fits p) :
    p.parseKnown lineno (pos ++ ts.map Tok.text) =
      match canonLoop p lineno pos ts with
      | .error e => .error e
      | .ok (st, rest) =>
        match finish lineno st.seen p.actions st.ns false with
        | .error e => .error e
        | .ok (ns, missing) =>
          if missing then .error (argErr c!"the following arguments are required" lineno)
          else .ok (ns, st.extras ++ rest.map (·.1)) := by
  have hnO : ∀ x ∈ pos.map (fun w => (w, Cls.A)), x.2.isO = false := by
    intro x hx
    obtain ⟨w, _, rfl⟩ := List.mem_map.1 hx
    rfl
  have hloop : ∀ f, (pos.map (fun w => (w, Cls.A)) ++ ts.map (tokCls p)).length < f →
      parseLoop lineno f p.initSt (pos.map (fun w => (w, Cls.A)) ++ ts.map (tokCls p)) = canonLoop p lineno pos ts := by
    intro f hf
    unfold canonLoop
    cases ts with
    | nil =>
      cases f with
      | zero => simp at hf
      | succ f =>
        rw [parseLoop]
        simp only [List.map_nil, List.append_nil, splitO_eq_none hnO, if_pos]
    | cons t ts =>
      rw [if_neg (by simp), List.map_cons]
      have e : tokCls p t = (t.text, .O ⟨p.lookup t.name, t.val⟩) := rfl
      rw [List.map_cons, e] at hf
      rw [e, parseLoop_pos _ _ _ _ _ _ _ hnO hf]
      simp only [List.length_map]
      cases posLoop lineno (pos.length + 1) p.initSt (pos.map fun w => (w, .A)) with
      | error e => rfl
      | ok st =>
        simp only
        rw [← e, ← List.map_cons, parseLoop_toks wf lineno (by simp at hf ⊢; omega) h]
  unfold OptParser.parseKnown
  rw [classify_pos p lineno hpos, classify_toks wf lineno h]
  simp only [Except.map]
  rw [hloop _ (by omega)]
  rfl

/-- The value an action stores, from the value parsed and the attribute's present value. -/
def actVal (a : Action) (v old : Val) : Val :=
  match a.kind with
  | .store => v
  | .storeConst => a.const
  | .append => old.push v.asStr
  | .appendConst => old.push a.const.asStr
  | .extend => if old ≠ .none then old.concat v else v
  | .extendConst => if old ≠ .none then a.const.concat v else a.const

theorem applyAction_eq (a : Action) (v : Val) (ns : Ns) :
    applyAction a v ns = ns.set a.dest (actVal a v (ns.getD a.dest)) := by
  unfold applyAction actVal
  cases a.kind <;> simp only <;> split <;> rfl

theorem takeAction_ok {lineno : Option Int} {a : Action} {l : List Str} {ns ns' : Ns}
    (h : takeAction lineno a l ns = .ok ns') :
    ∃ v, getValues lineno a l = .ok v ∧ ns' = ns.set a.dest (actVal a v (ns.getD a.dest)) := by
  unfold takeAction at h
  cases hv : getValues lineno a l with
  | error e => rw [hv] at h; cases h
  | ok v =>
    rw [hv] at h
    simp only [Except.map, Except.ok.injEq] at h
    exact ⟨v, rfl, by rw [← h, applyAction_eq]⟩

/-- The value of attribute `d` after the options, from its value before. -/
def runKey (p : OptParser) (lineno : Option Int) (d : Str) : List Tok → Option Val → Option Val
  | [], o => o
  | t :: ts, o =>
    match p.lookup t.name with
    | none => runKey p lineno d ts o
    | some a =>
      match getValues lineno a t.val.toList with
      | .error _ => runKey p lineno d ts o
      | .ok v => runKey p lineno d ts (if a.dest = d then some (actVal a v (o.getD .none)) else o)

theorem runToks_get {p : OptParser} {lineno : Option Int} {ts : List Tok} {ns ns' : Ns}
    (h : runToks p lineno ts ns = .ok ns') (d : Str) : ns'.get d = runKey p lineno d ts (ns.get d) := by
  induction ts generalizing ns with
  | nil => injection h with h; rw [h]; rfl
  | cons t ts ih =>
    simp only [runToks] at h
    split at h
    · cases h
    · rename_i a ha
      split at h
      · cases h
      · rename_i ns1 hns
        obtain ⟨v, hv, rfl⟩ := takeAction_ok hns
        rw [ih h]
        simp only [runKey, ha, hv]
        congr 1
        rw [Ns.get_set]
        split
        · rename_i hd; subst hd; rfl
        · rfl

/-- The options succeed exactly if every single value is acceptable. -/
theorem runToks_ok_iff {p : OptParser} {lineno : Option Int} {ts : List Tok} {ns : Ns} :
    (∃ ns', runToks p lineno ts ns = .ok ns') ↔
      ∀ t ∈ ts, ∃ a v, p.lookup t.name = some a ∧ getValues lineno a t.val.toList = .ok v := by
  induction ts generalizing ns with
  | nil => simp [runToks]
  | cons t ts ih =>
    simp only [runToks]
    constructor
    · rintro ⟨ns', h⟩
      split at h
      · cases h
      · rename_i a ha
        split at h
        · cases h
        · rename_i ns1 hns
          obtain ⟨v, hv, _⟩ := takeAction_ok hns
          intro t' ht'
          rcases List.mem_cons.1 ht' with rfl | ht'
          · exact ⟨a, v, ha, hv⟩
          · exact ih.1 ⟨ns', h⟩ t' ht'
    · intro h
      obtain ⟨a, v, ha, hv⟩ := h t (by simp)
      rw [ha]
      simp only [takeAction, hv, Except.map]
      exact ih.2 (fun t' ht' => h t' (by simp [ht']))

def tokDest (p : OptParser) (t : Tok) : Option Str := (p.lookup t.name).map (·.dest)

theorem runKey_filter (p : OptParser) (lineno : Option Int) (d : Str) (ts : List Tok) (o : Option Val) :
    runKey p lineno d ts o = runKey p lineno d (ts.filter fun t => tokDest p t = some d) o := by
  induction ts generalizing o with
  | nil => rfl
  | cons t ts ih =>
    rw [runKey, List.filter_cons]
    cases ha : p.lookup t.name with
    | none =>
      simp only [tokDest, ha]
      rw [if_neg (by simp)]
      exact ih o
    | some a =>
      simp only [tokDest, ha, Option.map_some, Option.some.injEq, decide_eq_true_eq]
      by_cases hd : a.dest = d
      · rw [if_pos hd, runKey, ha]
        simp only [if_pos hd]
        split
        · exact ih o
        · exact ih _
      · rw [if_neg hd]
        simp only [if_neg hd]
        split <;> exact ih o

theorem runKey_append (p : OptParser) (lineno : Option Int) (d : Str) (l r : List Tok) (o : Option Val) :
    runKey p lineno d (l ++ r) o = runKey p lineno d r (runKey p lineno d l o) := by
  induction l generalizing o with
  | nil => rfl
  | cons t l ih =>
    rw [List.cons_append, runKey, runKey]
    split
    · exact ih o
    · split
      · exact ih o
      · exact ih _

theorem runKey_other (p : OptParser) (lineno : Option Int) (d : Str) (ts : List Tok) (o : Option Val)
    (h : ∀ t ∈ ts, tokDest p t ≠ some d) : runKey p lineno d ts o = o := by
  rw [runKey_filter, List.filter_eq_nil_iff.2]
  · rfl
  · intro t ht; simpa using h t ht

/-! ### Positionals and defaults leave other attributes alone -/

theorem takePositionals_get {lineno : Option Int} {as : List Action} {ks : List Nat} {st st' : LoopSt}
    {rest rest' : Args} (h : takePositionals lineno as ks st rest = .ok (st', rest')) {d : Str}
    (hd : ∀ a ∈ as, a.dest ≠ d) : st'.ns.get d = st.ns.get d := by
  induction as generalizing ks st rest with
  | nil =>
    simp only [takePositionals, Except.ok.injEq, Prod.mk.injEq] at h
    rw [h.1]
  | cons a as ih =>
    cases ks with
    | nil =>
      simp only [takePositionals, Except.ok.injEq, Prod.mk.injEq] at h
      rw [h.1]
    | cons k ks =>
      simp only [takePositionals] at h
      split at h
      · cases h
      · rename_i ns hns
        obtain ⟨v, _, rfl⟩ := takeAction_ok hns
        rw [ih h (fun b hb => hd b (by simp [hb]))]
        exact Ns.get_set_ne _ _ (hd a (by simp))

theorem consumePositionals_get {lineno : Option Int} {st st' : LoopSt}
    {rest rest' : Args} (h : consumePositionals lineno st rest = .ok (st', rest')) {d : Str}
    (hd : ∀ a ∈ st.positionals, a.dest ≠ d) : st'.ns.get d = st.ns.get d := by
  unfold consumePositionals at h
  simp only at h
  split at h
  · cases h
  · rename_i st1 rest1 ht
    simp only [Except.ok.injEq, Prod.mk.injEq] at h
    rw [← h.1]
    exact takePositionals_get ht hd

theorem posLoop_get {lineno : Option Int} {f : Nat} {st st' : LoopSt}
    {pos : Args} (h : posLoop lineno f st pos = .ok st') {d : Str}
    (hd : ∀ a ∈ st.positionals, a.dest ≠ d) :
    st'.ns.get d = st.ns.get d ∧ ∀ a ∈ st'.positionals, a ∈ st.positionals := by
  induction f generalizing st pos with
  | zero => injection h with h; subst h; exact ⟨rfl, fun _ h => h⟩
  | succ f ih =>
    rw [posLoop] at h
    split at h
    · injection h with h; subst h; exact ⟨rfl, fun _ h => h⟩
    · split at h
      · cases h
      · rename_i st1 pos1 hc
        obtain ⟨_, _, n, hn⟩ := consumePositionals_ok hc
        have hsub : ∀ a ∈ st1.positionals, a ∈ st.positionals := fun a ha => by
          rw [hn] at ha; exact List.mem_of_mem_drop ha
        have hg := consumePositionals_get hc hd
        split at h
        · obtain ⟨h1, h2⟩ := ih h (fun a ha => hd a (hsub a ha))
          exact ⟨by rw [h1, hg], fun a ha => hsub a (h2 a ha)⟩
        · injection h with h; subst h
          exact ⟨hg, hsub⟩

theorem finish_get {lineno : Option Int} {seen : List Nat} {as : List Action} {ns ns' : Ns} {m m' : Bool}
    (h : finish lineno seen as ns m = .ok (ns', m')) {d : Str}
    (hd : ∀ a ∈ as, a.dest = d → a.id ∈ seen ∨ ∀ s, a.default ≠ .str s) : ns'.get d = ns.get d := by
  induction as generalizing ns m with
  | nil =>
    simp only [finish, Except.ok.injEq, Prod.mk.injEq] at h
    rw [h.1]
  | cons a as ih =>
    have ih := fun {ns m} => @ih ns m
    have hd' : ∀ a ∈ as, a.dest = d → a.id ∈ seen ∨ ∀ s, a.default ≠ .str s := fun b hb => hd b (by simp [hb])
    rw [finish] at h
    split at h
    · exact ih h hd'
    · rename_i hs
      split at h
      · exact ih h hd'
      · split at h
        · rename_i s hs2
          split at h
          · split at h
            · cases h
            · rename_i v hv
              rw [ih h hd']
              apply Ns.get_set_ne
              intro e
              rcases hd a (by simp) e with h1 | h1
              · exact hs h1
              · exact h1 s hs2
          · exact ih h hd'
        · exact ih h hd'

/-- `consume_positionals` keeps what has been seen. -/
theorem takePositionals_seen_mono {lineno : Option Int} {as : List Action} {ks : List Nat} {st st' : LoopSt}
    {rest rest' : Args} (h : takePositionals lineno as ks st rest = .ok (st', rest')) :
    ∀ i ∈ st.seen, i ∈ st'.seen := by
  induction as generalizing ks st rest with
  | nil =>
    simp only [takePositionals, Except.ok.injEq, Prod.mk.injEq] at h
    intro i hi; rw [← h.1]; exact hi
  | cons a as ih =>
    cases ks with
    | nil =>
      simp only [takePositionals, Except.ok.injEq, Prod.mk.injEq] at h
      intro i hi; rw [← h.1]; exact hi
    | cons k ks =>
      simp only [takePositionals] at h
      split at h
      · cases h
      · intro i hi
        exact ih h i (by simp [hi])

theorem consumePositionals_seen_mono {lineno : Option Int} {st st' : LoopSt}
    {rest rest' : Args} (h : consumePositionals lineno st rest = .ok (st', rest')) :
    ∀ i ∈ st.seen, i ∈ st'.seen := by
  unfold consumePositionals at h
  simp only at h
  split at h
  · cases h
  · rename_i st1 rest1 ht
    simp only [Except.ok.injEq, Prod.mk.injEq] at h
    rw [← h.1]
    have := takePositionals_seen_mono ht
    exact this

/-- The default is a string (which `parse_args` converts with `type` if the option is absent). -/
def Val.isStr : Val → Bool
  | .str _ => true
  | _ => false

/-- No positional and no conversion of another argument's default interferes with the
destination of option `a`. -/
def OptParser.Owns (p : OptParser) (a : Action) : Prop :=
  ∀ b ∈ p.actions, b.dest = a.dest → b.opts ≠ [] ∧ (b.id = a.id ∨ b.default.isStr = false)

instance (p : OptParser) (a : Action) : Decidable (p.Owns a) := by
  unfold OptParser.Owns; infer_instance

/-- The attribute an option writes, after a successful parse of a canonical line. -/
theorem parseKnown_canon_get {p : OptParser} (wf : p.WF) {lineno : Option Int} {pos : List Str}
    (hpos : ∀ w ∈ pos, startsWith w c!"-" = false) {ts : List Tok} (h : ∀ t ∈ ts, t.Fits p)
    {ns : Ns} {ex : List Str} (hp : p.parseKnown lineno (pos ++ ts.map Tok.text) = .ok (ns, ex))
    {a : Action} (ho : p.Owns a) (hseen : ∃ t ∈ ts, p.lookup t.name = some a) :
    ns.get a.dest = runKey p lineno a.dest ts (p.defaults.get a.dest) ∧
    (∀ t ∈ ts, ∃ b v, p.lookup t.name = some b ∧ getValues lineno b t.val.toList = .ok v) := by
  rw [parseKnown_canon wf lineno hpos h] at hp
  have hpo : ∀ b ∈ p.initSt.positionals, b.dest ≠ a.dest := by
    intro b hb e
    simp only [OptParser.initSt, List.mem_filter, List.isEmpty_iff] at hb
    exact (ho b hb.1 e).1 hb.2
  split at hp
  · cases hp
  · rename_i st rest hc
    split at hp
    · cases hp
    · rename_i ns1 missing hf
      split at hp
      · cases hp
      · simp only [Except.ok.injEq, Prod.mk.injEq] at hp
        rw [← hp.1]
        have hne : ts ≠ [] := by
          obtain ⟨t, ht, _⟩ := hseen
          exact List.ne_nil_of_mem ht
        unfold canonLoop at hc
        rw [if_neg hne] at hc
        split at hc
        · cases hc
        · rename_i st1 hpl
          obtain ⟨hg1, hsub⟩ := posLoop_get hpl hpo
          split at hc
          · cases hc
          · rename_i ns2 hrt
            have hg2 := consumePositionals_get hc (d := a.dest) (fun b hb => hpo b (hsub b hb))
            have hs2 := consumePositionals_seen_mono hc
            rw [finish_get hf (d := a.dest), hg2, runToks_get hrt, hg1]
            · exact ⟨rfl, runToks_ok_iff.1 ⟨_, hrt⟩⟩
            · intro b hb hd
              rcases (ho b hb hd).2 with e | e
              · left
                rw [e]
                apply hs2
                obtain ⟨t, ht, hl⟩ := hseen
                apply List.mem_append_left
                rw [List.mem_reverse]
                exact List.mem_filterMap.2 ⟨t, ht, by rw [hl]; rfl⟩
              · right; intro s hs; rw [hs] at e; cases e

/-! ## Parsers without positionals -/

theorem consumePositionals_nil {lineno : Option Int} {st : LoopSt} {rest : Args} (hs : st.positionals = []) :
    consumePositionals lineno st rest = .ok (st, rest) := by
  unfold consumePositionals
  simp only [hs, List.map_nil, matchPartial, List.length_nil, matchPartial.go, takePositionals, List.drop_nil]
  congr 2
  cases st
  simp_all

/-- Words and options given to a parser that has no positional arguments: the options take
effect in order and the words are left over. -/
theorem parseKnown_opts {p : OptParser} (wf : p.WF) (lineno : Option Int) (hp : p.initSt.positionals = [])
    {pos : List Str} (hpos : ∀ w ∈ pos, startsWith w c!"-" = false) {ts : List Tok} (h : ∀ t ∈ ts, t.Fits p) :
    p.parseKnown lineno (pos ++ ts.map Tok.text) =
      match runToks p lineno ts p.defaults with
      | .error e => .error e
      | .ok ns =>
        match finish lineno (tokIds p ts).reverse p.actions ns false with
        | .error e => .error e
        | .ok (ns, missing) =>
          if missing then .error (argErr c!"the following arguments are required" lineno)
          else .ok (ns, pos) := by
  have hmap : (pos.map fun w => (w, Cls.A)).map (·.1) = pos := by
    rw [List.map_map]; exact List.map_id _
  have hl : ∀ f, posLoop lineno (f + 1) p.initSt (pos.map fun w => (w, Cls.A)) = .ok { p.initSt with extras := pos } := by
    intro f
    rw [posLoop]
    split
    · rename_i hw
      have : pos = [] := by simpa using hw
      subst this
      rfl
    · rw [consumePositionals_nil hp]
      simp only [Nat.lt_irrefl, if_false, hmap]
      rfl
  rw [parseKnown_canon wf lineno hpos h]
  unfold canonLoop
  by_cases hts : ts = []
  · subst hts
    rw [if_pos rfl, consumePositionals_nil hp]
    simp only [runToks, hmap]
    rfl
  · rw [if_neg hts, hl]
    simp only
    rw [show p.initSt.ns = p.defaults from rfl]
    cases runToks p lineno ts p.defaults with
    | error e => rfl
    | ok ns =>
      simp only
      have hc := consumePositionals_nil (lineno := lineno) (rest := [])
        (st := ⟨ns, p.initSt.positionals, pos, (tokIds p ts).reverse ++ p.initSt.seen⟩) hp
      rw [hc]
      simp only [List.map_nil, List.append_nil, show p.initSt.seen = [] from rfl]

theorem Ns.set_same {ns : Ns} {k : Str} {v : Val} (h : ns.get k = some v) : ns.set k v = ns := by
  induction ns with
  | nil => simp [Ns.get] at h
  | cons kv t ih =>
    obtain ⟨k', v'⟩ := kv
    rw [Ns.set]
    split
    · rename_i hk
      subst hk
      simp [Ns.get] at h
      rw [h]
    · rename_i hk
      rw [ih]
      simp only [Ns.get, List.lookup] at h ⊢
      have : (k == k') = false := by simpa using fun e => hk e.symm
      rw [this] at h
      exact h

/-- The last phase changes nothing when the required options are there and string defaults
convert to themselves. -/
theorem finish_id {lineno : Option Int} {seen : List Nat} {as : List Action} {ns : Ns} {m : Bool}
    (hr : ∀ a ∈ as, a.required = true → a.id ∈ seen)
    (hd : ∀ a ∈ as, ∀ s, a.default = .str s → a.type s = .ok (.str s)) :
    finish lineno seen as ns m = .ok (ns, m) := by
  induction as generalizing ns m with
  | nil => rfl
  | cons a as ih =>
    have ih' := fun ns m => ih (ns := ns) (m := m) (fun b hb => hr b (by simp [hb])) (fun b hb => hd b (by simp [hb]))
    rw [finish]
    split
    · exact ih' _ _
    · split
      · rename_i h1 h2
        exact absurd (hr a (by simp) h2) h1
      · split
        · rename_i s hs
          split
          · rename_i hg
            rw [getValue, hd a (by simp) s hs]
            simp only
            rw [Ns.set_same hg]
            exact ih' _ _
          · exact ih' _ _
        · exact ih' _ _

end Ks
