import Verif.Parser
import Verif.PackagesLemmas
/-!
# Lemmas about the state machine
-/
namespace Ks

/-! ## Association lists -/

section assoc
variable {α β : Type} [BEq α] [LawfulBEq α] [DecidableEq α]

theorem lookup_cons_ite (k a : α) (b : β) (t : List (α × β)) :
    List.lookup k ((a, b) :: t) = if k = a then some b else t.lookup k := by
  rw [List.lookup]
  by_cases h : k = a
  · simp [h]
  · rw [if_neg h, beq_false_of_ne h]

theorem lookup_assocSet (k k' : α) (v : β) (l : List (α × β)) :
    (assocSet k v l).lookup k' = if k' = k then some v else l.lookup k' := by
  induction l with
  | nil => rw [assocSet, lookup_cons_ite]
  | cons x t ih =>
    obtain ⟨a, b⟩ := x
    rw [assocSet]
    by_cases hak : a = k
    · subst hak
      rw [if_pos rfl, lookup_cons_ite, lookup_cons_ite]
      by_cases h : k' = a <;> simp [h]
    · rw [if_neg hak, lookup_cons_ite, lookup_cons_ite, ih]
      by_cases h : k' = a
      · subst h; simp [hak]
      · simp [h]

theorem lookup_isSome_iff {k : α} {l : List (α × β)} : (l.lookup k).isSome = true ↔ k ∈ l.map Prod.fst := by
  induction l with
  | nil => simp
  | cons x t ih =>
    obtain ⟨a, b⟩ := x
    rw [lookup_cons_ite]
    by_cases h : k = a
    · simp [h]
    · rw [if_neg h, ih]; simp [h]

omit [BEq α] [LawfulBEq α] in
theorem keys_assocSet {k : α} {v : β} {l : List (α × β)} (h : k ∈ l.map Prod.fst) :
    (assocSet k v l).map Prod.fst = l.map Prod.fst := by
  induction l with
  | nil => simp at h
  | cons x t ih =>
    obtain ⟨a, b⟩ := x
    rw [assocSet]
    by_cases hak : a = k
    · simp [hak]
    · have : k ∈ t.map Prod.fst := by
        simp only [List.map_cons, List.mem_cons] at h
        exact h.resolve_left fun e => hak e.symm
      simp [hak, ih this]

omit [BEq α] [LawfulBEq α] in
theorem keys_assocSet_new {k : α} {v : β} {l : List (α × β)} (h : k ∉ l.map Prod.fst) :
    assocSet k v l = l ++ [(k, v)] := by
  induction l with
  | nil => rfl
  | cons x t ih =>
    obtain ⟨a, b⟩ := x
    simp only [List.map_cons, List.mem_cons, not_or] at h
    rw [assocSet, if_neg (Ne.symm h.1), ih h.2]
    rfl

omit [BEq α] [LawfulBEq α] in
theorem assocSet_assocSet (k : α) (v w : β) (l : List (α × β)) :
    assocSet k v (assocSet k w l) = assocSet k v l := by
  induction l with
  | nil => simp [assocSet]
  | cons x t ih =>
    obtain ⟨a, b⟩ := x
    by_cases hak : a = k
    · simp [assocSet, hak]
    · simp [assocSet, hak, ih]

theorem assocSet_self {k : α} {v : β} {l : List (α × β)} (h : l.lookup k = some v) : assocSet k v l = l := by
  induction l with
  | nil => simp at h
  | cons x t ih =>
    obtain ⟨a, b⟩ := x
    by_cases hak : a = k
    · subst hak
      rw [lookup_cons_ite, if_pos rfl] at h
      simp only [Option.some.injEq] at h
      simp [assocSet, h]
    · rw [lookup_cons_ite, if_neg (Ne.symm hak)] at h
      simp [assocSet, hak, ih h]

end assoc

variable {C : Type}

/-- The registered section tags. -/
def PState.tags (s : PState C) : List Str := s.sections.map Prod.fst

theorem valid_iff {s : PState C} {name : Str} : s.valid name = true ↔ name ∈ s.tags := lookup_isSome_iff

theorem sec_setSec (s : PState C) (name name' : Str) (o : SecObj) :
    (s.setSec name o).sec name' = if name' = name then some o else s.sec name' := lookup_assocSet ..

theorem tags_setSec {s : PState C} {name : Str} {o : SecObj} (h : name ∈ s.tags) :
    (s.setSec name o).tags = s.tags := keys_assocSet h

theorem setSec_setSec (s : PState C) (name : Str) (o o' : SecObj) :
    (s.setSec name o).setSec name o' = s.setSec name o' := by
  simp only [PState.setSec, assocSet_assocSet]

theorem setSec_self {s : PState C} {name : Str} {o : SecObj} (h : s.sec name = some o) : s.setSec name o = s := by
  simp only [PState.setSec, assocSet_self h]

theorem mem_tags_of_sec {s : PState C} {name : Str} {o : SecObj} (h : s.sec name = some o) : name ∈ s.tags :=
  valid_iff.1 (by simp [PState.valid, h])

/-! ## Frames: what the pieces leave alone -/

/-- The section table keeps its tags, the classes of its objects, and nesting is unchanged. -/
structure Frame (s s' : PState C) : Prop where
  tags : s'.tags = s.tags
  includeDepth : s'.includeDepth = s.includeDepth
  allLines : ∀ n, (s'.sec n).map (·.allLines) = (s.sec n).map (·.allLines)
  currentdir : s'.currentdir = s.currentdir

theorem Frame.refl (s : PState C) : Frame s s := ⟨rfl, rfl, fun _ => rfl, rfl⟩
theorem Frame.trans {a b c : PState C} (h : Frame a b) (h' : Frame b c) : Frame a c :=
  ⟨h'.tags.trans h.tags, h'.includeDepth.trans h.includeDepth, fun n => (h'.allLines n).trans (h.allLines n),
    h'.currentdir.trans h.currentdir⟩

theorem frame_setSec {s : PState C} {name : Str} {o o' : SecObj} (h : s.sec name = some o)
    (ho : o'.allLines = o.allLines) : Frame s (s.setSec name o') := by
  refine ⟨tags_setSec (mem_tags_of_sec h), rfl, fun n => ?_, rfl⟩
  rw [sec_setSec]
  split
  · rename_i e; subst e; simp [h, ho]
  · rfl

theorem handleLine_frame (name line : Str) (s : PState C) :
    Frame s (handleLine name line s).1 ∧ (handleLine name line s).1.state = s.state := by
  unfold handleLine
  split
  · exact ⟨.refl _, rfl⟩
  · rename_i h; exact ⟨frame_setSec h rfl, rfl⟩
  · exact ⟨⟨rfl, rfl, fun _ => rfl, rfl⟩, rfl⟩
  · rename_i h; exact ⟨frame_setSec h rfl, rfl⟩

theorem finalize_frame (name : Str) (s : PState C) : Frame s (finalize name s) ∧ (finalize name s).state = none := by
  refine ⟨?_, rfl⟩
  unfold finalize
  simp only
  split
  · rename_i t k b h
    have hf := frame_setSec (o' := .script t k (b.finalize t).2) h rfl
    split <;> exact ⟨hf.tags, hf.includeDepth, hf.allLines, hf.currentdir⟩
  · rename_i a b h
    have hf := frame_setSec (o' := .null [] []) h rfl
    exact ⟨hf.tags, hf.includeDepth, hf.allLines, hf.currentdir⟩
  · exact ⟨rfl, rfl, fun _ => rfl, rfl⟩

/-! ## Fuel -/

/-- `_readSection` consumes a line, or puts the first line back and leaves the section. -/
theorem readSection_rest {cfg : Cfg} {inc : Str → PState C → Res (PState C)} {name : Str} (lines : List Str)
    {n n' : Nat} {s s' : PState C} {rest : List Str} (h : readSection cfg inc name lines n s = (s', .ok (n', rest))) :
    rest.length < lines.length ∨ (rest = lines ∧ (lines ≠ [] → s'.state = none)) := by
  induction lines generalizing n s with
  | nil =>
    simp only [readSection, Prod.mk.injEq, Except.ok.injEq] at h
    exact .inr ⟨h.2.2.symm, fun h => absurd rfl h⟩
  | cons line tl ih =>
    have again : ∀ {m t}, readSection cfg inc name tl m t = (s', .ok (n', rest)) → rest.length < (line :: tl).length := by
      intro m t ht
      rcases ih ht with h | ⟨h, _⟩
      · simp only [List.length_cons]; omega
      · subst h; simp
    unfold readSection at h
    split at h
    · simp at h
    · simp only at h
      generalize hs1 : (if line = [] ∧ s.includeDepth = 0 then finalize name s else s) = s1 at h
      split at h
      · exact .inl (again h)
      · split at h
        · split at h
          · split at h
            · simp at h
            · exact .inl (again h)
          · split at h
            · simp at h
            · exact .inl (again h)
            · split at h
              · simp only [Prod.mk.injEq, Except.ok.injEq] at h
                left; rw [← h.2.2]; simp
              · split at h
                · split at h
                  · simp at h
                  · split at h
                    · simp at h
                    · exact .inl (again h)
                · split at h
                  · exact .inl (again h)
                  · split at h
                    · split at h
                      · simp at h
                      · simp only [Prod.mk.injEq, Except.ok.injEq] at h
                        right
                        refine ⟨h.2.2.symm, fun _ => ?_⟩
                        rw [← h.1]; rfl
                    · exact .inl (again h)
        · split at h
          · simp at h
          · exact .inl (again h)

/-- The number of rounds left is bounded by this measure. -/
def mu (lines : List Str) (s : PState C) : Nat := 2 * lines.length + (if s.state.isSome then 1 else 0)

theorem mu_lt {l : List Str} {x : Str} {t : List Str} {s s' : PState C} (h : l.length ≤ t.length) :
    mu l s' < mu (x :: t) s := by
  simp only [mu, List.length_cons]
  split <;> split <;> omega

theorem step_mu {cfg : Cfg} {disp : Disp C} {inc : Str → PState C → Res (PState C)} {line : Str} {rest : List Str}
    {n n' : Nat} {s s' : PState C} {rest' : List Str}
    (h : step cfg disp inc line rest n s = .next n' rest' s') : mu rest' s' < mu (line :: rest) s := by
  have hres : ∀ {m r}, Step.ofRes m rest r = .next n' rest' s' → mu rest' s' < mu (line :: rest) s := by
    intro m r h
    rcases r with ⟨t, _ | e⟩
    · simp only [Step.ofRes, Step.next.injEq] at h
      obtain ⟨_, rfl, rfl⟩ := h
      exact mu_lt (Nat.le_refl _)
    · simp [Step.ofRes] at h
  unfold step at h
  simp only at h
  split at h
  · simp only [Step.next.injEq] at h
    obtain ⟨_, rfl, rfl⟩ := h
    exact mu_lt (Nat.le_refl _)
  · split at h
    · simp at h
    · simp at h
    · split at h
      · split at h
        · simp at h
        · exact hres h
      · split at h
        · split at h
          · simp only [Step.next.injEq] at h
            obtain ⟨_, rfl, rfl⟩ := h
            exact mu_lt (Nat.le_refl _)
          · split at h
            · simp at h
            · split at h
              · split at h
                · simp at h
                · split at h
                  · simp at h
                  · generalize hr : readSection cfg inc _ rest _ _ = r at h
                    rcases r with ⟨t, e | ⟨m, l⟩⟩
                    · simp [Step.ofSection] at h
                    · simp only [Step.ofSection, Step.next.injEq] at h
                      obtain ⟨_, rfl, rfl⟩ := h
                      rcases readSection_rest _ hr with h1 | ⟨h1, _⟩
                      · exact mu_lt (Nat.le_of_lt h1)
                      · exact mu_lt (by rw [h1]; exact Nat.le_refl _)
              · exact hres h
        · rename_i hst
          split at h
          · generalize hr : readSection cfg inc _ (line :: rest) _ _ = r at h
            rcases r with ⟨t, e | ⟨m, l⟩⟩
            · simp [Step.ofSection] at h
            · simp only [Step.ofSection, Step.next.injEq] at h
              obtain ⟨_, rfl, rfl⟩ := h
              rcases readSection_rest _ hr with h1 | ⟨h1, h2⟩
              · exact mu_lt (by simp only [List.length_cons] at h1; omega)
              · subst h1
                simp [mu, hst, h2 (List.cons_ne_nil _ _)]
          · simp only [Step.next.injEq] at h
            obtain ⟨_, rfl, rfl⟩ := h
            exact mu_lt (Nat.le_refl _)

/-- Any amount of fuel above the measure gives the same result. -/
theorem runFuel_enough {cfg : Cfg} {disp : Disp C} {inc : Str → PState C → Res (PState C)} (f g : Nat)
    (lines : List Str) (n : Nat) (s : PState C) (hf : mu lines s < f) (hg : mu lines s < g) :
    runFuel cfg disp inc f lines n s = runFuel cfg disp inc g lines n s := by
  induction f generalizing g lines n s with
  | zero => omega
  | succ f ih =>
    cases g with
    | zero => omega
    | succ g =>
      cases lines with
      | nil => rfl
      | cons line rest =>
        rw [runFuel, runFuel]
        split
        · rfl
        · split
          · rfl
          · rename_i h
            have := step_mu h
            exact ih _ _ _ _ (by omega) (by omega)

/-- The loop of `_stateMachine` from line number `n` on, with enough fuel. -/
def run (cfg : Cfg) (disp : Disp C) (inc : Str → PState C → Res (PState C))
    (lines : List Str) (n : Nat) (s : PState C) : Res (PState C) :=
  runFuel cfg disp inc (2 * lines.length + 2) lines n s

theorem stateMachine_eq (cfg : Cfg) (disp : Disp C) (inc : Str → PState C → Res (PState C)) (lines : List Str)
    (s : PState C) : stateMachine cfg disp inc lines s = run cfg disp inc lines 0 s := rfl

theorem run_nil (cfg : Cfg) (disp : Disp C) (inc : Str → PState C → Res (PState C)) (n : Nat) (s : PState C) :
    run cfg disp inc [] n s = (s, none) := rfl

theorem run_eof (cfg : Cfg) (disp : Disp C) (inc : Str → PState C → Res (PState C)) (l : List Str) (n : Nat) (s : PState C) :
    run cfg disp inc ([] :: l) n s = (s, none) := rfl

theorem run_cons {cfg : Cfg} {disp : Disp C} {inc : Str → PState C → Res (PState C)} {line : Str} (hl : line ≠ [])
    (rest : List Str) (n : Nat) (s : PState C) :
    run cfg disp inc (line :: rest) n s = match step cfg disp inc line rest n s with
      | .stop r => r
      | .next n' rest' s' => run cfg disp inc rest' n' s' := by
  unfold run
  rw [runFuel, if_neg hl]
  cases h : step cfg disp inc line rest n s with
  | stop r => rfl
  | next n' rest' s' =>
    simp only
    have := step_mu h
    refine runFuel_enough _ _ _ _ _ ?_ ?_
    · have hle : mu (line :: rest) s ≤ 2 * (line :: rest).length + 1 := by
        simp only [mu]
        split <;> omega
      omega
    · simp only [mu]
      split <;> omega

/-! ## Lines -/

theorem splitWs_head {s w : Str} (h : (splitWs s).head? = some w) : ∃ r, lstrip s = w ++ r := by
  induction s generalizing w with
  | nil => simp [splitWs] at h
  | cons c t ih =>
    by_cases hc : isSpace c = true
    · rw [splitWs_cons_space hc] at h
      obtain ⟨r, hr⟩ := ih h
      exact ⟨r, by rw [← hr]; simp [lstrip, List.dropWhile, hc]⟩
    · have hc' : isSpace c = false := by simpa using hc
      have hl : lstrip (c :: t) = c :: t := by simp [lstrip, List.dropWhile, hc']
      rw [hl]
      cases t with
      | nil =>
        simp [splitWs, hc'] at h
        exact ⟨[], by simp [← h]⟩
      | cons d t =>
        rw [splitWs] at h
        simp only [hc', Bool.false_eq_true, if_false] at h
        by_cases hd : isSpace d = true
        · simp only [hd, if_true, List.head?_cons, Option.some.injEq] at h
          exact ⟨d :: t, by simp [← h]⟩
        · have hd' : isSpace d = false := by simpa using hd
          simp only [hd', Bool.false_eq_true, if_false] at h
          cases hs : splitWs (d :: t) with
          | nil => exact absurd hs (splitWs_ne_nil_of_cons hd')
          | cons x xs =>
            rw [hs] at h ih
            simp only [List.head?_cons, Option.some.injEq] at h
            obtain ⟨r, hr⟩ := ih rfl
            have hl2 : lstrip (d :: t) = d :: t := by simp [lstrip, List.dropWhile, hd']
            rw [hl2] at hr
            exact ⟨r, by rw [hr, ← h]; rfl⟩

theorem splitWs_eq_nil {s : Str} : splitWs s = [] ↔ s.all isSpace = true := by
  induction s with
  | nil => simp [splitWs]
  | cons c t ih =>
    by_cases hc : isSpace c = true
    · rw [splitWs_cons_space hc, ih]; simp [hc]
    · have hc' : isSpace c = false := by simpa using hc
      simp [splitWs_ne_nil_of_cons hc', hc']

/-- The first word of a line. -/
def firstWord (l : Str) : Option Str := (splitWs l).head?

/-- A line of a section body as far as the parser is concerned: not the end-of-file marker, and its
first word is no registered section tag, `%end` or `%include`. -/
def PlainLine (tags : List Str) (l : Str) : Prop :=
  l ≠ [] ∧ ∀ w, firstWord l = some w → w ∉ tags ∧ w ≠ c!"%end" ∧ w ≠ c!"%include"

/-- A line that closes a section. -/
def EndLine (l : Str) : Prop :=
  firstWord l = some c!"%end" ∧ ∃ a, shlexSplit l false = .ok (c!"%end" :: a)

theorem startsWith_percent_of_firstWord {l w : Str} (h : firstWord l = some ('%' :: w)) :
    startsWith (lstrip l) c!"%" = true := by
  obtain ⟨r, hr⟩ := splitWs_head h
  rw [hr]; rfl

theorem firstWord_of_startsWith {l : Str} (h : startsWith (lstrip l) c!"%" = true) :
    ∃ w, firstWord l = some ('%' :: w) := by
  cases hw : firstWord l with
  | none =>
    have : splitWs l = [] := by
      unfold firstWord at hw
      cases hs : splitWs l with
      | nil => rfl
      | cons a b => simp [hs] at hw
    rw [splitWs_eq_nil] at this
    obtain ⟨t, ht⟩ := startsWith_iff.1 h
    have hh := lstrip_head l '%' (by rw [ht]; rfl)
    have hm : '%' ∈ l := by
      have : '%' ∈ lstrip l := by rw [ht]; simp
      exact List.dropWhile_sublist _ |>.mem this
    have := List.all_eq_true.1 this '%' hm
    rw [this] at hh
    simp at hh
  | some w =>
    obtain ⟨r, hr⟩ := splitWs_head hw
    obtain ⟨t, ht⟩ := startsWith_iff.1 h
    have hword := splitWs_isWord l w (List.mem_of_mem_head? hw)
    cases w with
    | nil => exact absurd rfl hword.1
    | cons c w =>
      rw [ht] at hr
      simp at hr
      exact ⟨w, by rw [← hr.1]⟩

theorem not_blank_of_firstWord {l w : Str} (h : firstWord l = some ('%' :: w)) : isBlankOrComment l = false := by
  obtain ⟨r, hr⟩ := splitWs_head h
  have hne : l ≠ [] := by rintro rfl; simp [firstWord, splitWs] at h
  have hns : l.all isSpace = false := by
    cases ha : l.all isSpace with
    | false => rfl
    | true => rw [← splitWs_eq_nil] at ha; simp [firstWord, ha] at h
  unfold isBlankOrComment strIsSpace
  rw [hr, hns]
  simp [hne]

theorem not_valid_of {s : PState C} {w : Str} (h : w ∉ s.tags) : s.valid w = false := by
  cases hv : s.valid w with
  | false => rfl
  | true => exact absurd (valid_iff.1 hv) h

/-- A body line: skipped if blank or a comment and the section does not want all lines, otherwise
handed to the section. -/
theorem readSection_plain {cfg : Cfg} {inc : Str → PState C → Res (PState C)} {name l : Str} {s : PState C}
    (hl : PlainLine s.tags l) (rest : List Str) (n : Nat) :
    readSection cfg inc name (l :: rest) n s =
      if isBlankOrComment l ∧ (s.sec name).map (·.allLines) ≠ some true then readSection cfg inc name rest (n + 1) s
      else match handleLine name l s with
        | (s, some e) => (s, .error e)
        | (s, none) => readSection cfg inc name rest (n + 1) s := by
  have hne := hl.1
  rw [readSection]
  simp only [hne, false_and, if_false]
  split
  · rfl
  · split
    · rename_i h
      obtain ⟨w, hw⟩ := firstWord_of_startsWith h
      have hp := hl.2 _ hw
      have hd : (splitWs l).headD [] = '%' :: w := by
        unfold firstWord at hw
        cases hs : splitWs l with
        | nil => simp [hs] at hw
        | cons a b => simp [hs] at hw; simp [hw]
      rw [if_pos ⟨by rw [hd, not_valid_of hp.1]; simp, by rw [hd]; exact hp.2.1, by rw [hd]; exact hp.2.2⟩]
      rfl
    · rfl

theorem readSection_end {cfg : Cfg} {inc : Str → PState C → Res (PState C)} {name l : Str} {s : PState C}
    (hl : EndLine l) (rest : List Str) (n : Nat) :
    readSection cfg inc name (l :: rest) n s = (finalize name s, .ok (n + 1, rest)) := by
  obtain ⟨hw, a, ha⟩ := hl
  have hne : l ≠ [] := by rintro rfl; simp [firstWord, splitWs] at hw
  have hd : (splitWs l).headD [] = c!"%end" := by
    unfold firstWord at hw
    cases hs : splitWs l with
    | nil => simp [hs] at hw
    | cons a b => simp [hs] at hw; simp [hw]
  rw [readSection]
  simp only [hne, false_and, if_false, not_blank_of_firstWord hw, startsWith_percent_of_firstWord hw, hd, ha,
    if_true]
  simp

/-- A script section's lines are collected. -/
theorem readSection_script {cfg : Cfg} {inc : Str → PState C → Res (PState C)} {name : Str} {s : PState C}
    {t : ScriptType} {k : Nat} {b : ScriptBuf} (hs : s.sec name = some (.script t k b))
    (body : List Str) (hb : ∀ l ∈ body, PlainLine s.tags l) (rest : List Str) (n : Nat) :
    readSection cfg inc name (body ++ rest) n s =
      readSection cfg inc name rest (n + body.length)
        (s.setSec name (.script t k { b with body := b.body ++ body })) := by
  induction body generalizing s b n with
  | nil => simp [setSec_self hs]
  | cons l ls ih =>
    rw [List.cons_append, readSection_plain (hb l (by simp))]
    have h1 : handleLine name l s = (s.setSec name (.script t k (b.line l)), none) := by simp [handleLine, hs]
    rw [if_neg (by simp [hs, SecObj.allLines]), h1]
    simp only
    have htags : (s.setSec name (.script t k (b.line l))).tags = s.tags := tags_setSec (mem_tags_of_sec hs)
    rw [ih (b := b.line l) (by rw [sec_setSec, if_pos rfl]) (by rw [htags]; exact fun x hx => hb x (by simp [hx]))]
    rw [setSec_setSec]
    simp only [ScriptBuf.line, List.append_assoc, List.singleton_append, List.length_cons]
    congr 1
    omega

/-- A pass-through section's lines are collected. -/
theorem readSection_null {cfg : Cfg} {inc : Str → PState C → Res (PState C)} {name : Str} {s : PState C}
    {a b : List Str} (hs : s.sec name = some (.null a b))
    (body : List Str) (hb : ∀ l ∈ body, PlainLine s.tags l) (rest : List Str) (n : Nat) :
    readSection cfg inc name (body ++ rest) n s =
      readSection cfg inc name rest (n + body.length) (s.setSec name (.null a (b ++ body))) := by
  induction body generalizing s b n with
  | nil => simp [setSec_self hs]
  | cons l ls ih =>
    rw [List.cons_append, readSection_plain (hb l (by simp))]
    have h1 : handleLine name l s = (s.setSec name (.null a (b ++ [l])), none) := by simp [handleLine, hs]
    rw [if_neg (by simp [hs, SecObj.allLines]), h1]
    simp only
    have htags : (s.setSec name (.null a (b ++ [l]))).tags = s.tags := tags_setSec (mem_tags_of_sec hs)
    rw [ih (b := b ++ [l]) (by rw [sec_setSec, if_pos rfl]) (by rw [htags]; exact fun x hx => hb x (by simp [hx]))]
    rw [setSec_setSec]
    simp only [List.append_assoc, List.singleton_append, List.length_cons]
    congr 1
    omega

/-- Feed lines to the package selection, stopping at the first error. -/
def feedPackages : List Str → Packages → Res Packages
  | [], p => (p, none)
  | l :: ls, p => if isBlankOrComment l then feedPackages ls p else
    match p.handleLine l with
    | (p, none) => feedPackages ls p
    | (p, some e) => (p, some e)

/-- The `%packages` section's lines are handed over, apart from blank lines and comments. -/
theorem readSection_packages {cfg : Cfg} {inc : Str → PState C → Res (PState C)} {name : Str} {s : PState C}
    {k : Nat} (hs : s.sec name = some (.packages k))
    (body : List Str) (hb : ∀ l ∈ body, PlainLine s.tags l) (rest : List Str) (n : Nat) :
    readSection cfg inc name (body ++ rest) n s =
      match feedPackages body s.packages with
      | (p, none) => readSection cfg inc name rest (n + body.length) { s with packages := p }
      | (p, some e) => ({ s with packages := p }, .error e) := by
  induction body generalizing s n with
  | nil => simp [feedPackages]
  | cons l ls ih =>
    rw [List.cons_append, readSection_plain (hb l (by simp))]
    by_cases hc : isBlankOrComment l = true
    · rw [if_pos ⟨hc, by simp [hs, SecObj.allLines]⟩, feedPackages, if_pos hc,
        ih hs (fun x hx => hb x (by simp [hx]))]
      simp only [List.length_cons]
      have e : n + 1 + ls.length = n + (ls.length + 1) := by omega
      rw [e]
    · rw [if_neg (by simp [hc]), feedPackages, if_neg hc]
      have h1 : handleLine name l s = ({ s with packages := (s.packages.handleLine l).1 }, (s.packages.handleLine l).2) := by
        simp [handleLine, hs]
      rw [h1]
      cases hp : s.packages.handleLine l with
      | mk p o =>
        cases o with
        | some e => rfl
        | none =>
          simp only
          rw [ih (s := { s with packages := p }) hs (fun x hx => hb x (by simp [hx]))]
          simp only [List.length_cons]
          have e : n + 1 + ls.length = n + (ls.length + 1) := by omega
          rw [e]

/-! ## Lines of the command section -/

/-- A blank line or a comment. -/
def SkipLine (l : Str) : Prop := l ≠ [] ∧ isBlankOrComment l = true

/-- A command line with its words. -/
def CmdLine (l : Str) (words : List Str) : Prop :=
  isBlankOrComment l = false ∧ shlexSplit l true = .ok words ∧
  ∃ c w r, words = (c :: w) :: r ∧ c ≠ '%'

/-- The opening line of a section with its words. -/
def HeaderLine (l name : Str) (args : List Str) : Prop :=
  isBlankOrComment l = false ∧ shlexSplit l true = .ok (name :: args) ∧ startsWith name c!"%" = true ∧
  name ≠ c!"%include" ∧ name ≠ c!"%ksappend"

/-- `%include f` -/
def IncludeLine (l f : Str) : Prop :=
  isBlankOrComment l = false ∧ f ≠ [] ∧ ∃ r, shlexSplit l true = .ok (c!"%include" :: f :: r)

theorem ne_nil_of_not_blank {l : Str} (h : isBlankOrComment l = false) : l ≠ [] := by
  rintro rfl; simp [isBlankOrComment, strIsSpace] at h

variable {cfg : Cfg} {disp : Disp C} {inc : Str → PState C → Res (PState C)}

theorem run_skip {l : Str} (h : SkipLine l) (rest : List Str) (n : Nat) (s : PState C) :
    run cfg disp inc (l :: rest) n s = run cfg disp inc rest (n + 1) (specialComment l s) := by
  rw [run_cons h.1, step]
  simp [h.2]

theorem run_command {l : Str} {words : List Str} (h : CmdLine l words) (rest : List Str) (n : Nat) (s : PState C)
    (hs : s.state = none) :
    run cfg disp inc (l :: rest) n s = match tryFunc cfg (handleCommand disp (n + 1) words l s) with
      | (s, none) => run cfg disp inc rest (n + 1) s
      | (s, some e) => (s, some e) := by
  obtain ⟨h1, h2, c, w, r, rfl, hc⟩ := h
  have hi : (c :: w) ≠ c!"%include" := fun e => hc (by simp at e; exact e.1)
  have hk : (c :: w) ≠ c!"%ksappend" := fun e => hc (by simp at e; exact e.1)
  rw [run_cons (ne_nil_of_not_blank h1), step]
  simp only [h1, h2, hi, hk, hs, hc, Bool.false_eq_true, if_false, List.head?_cons]
  cases tryFunc cfg (handleCommand disp (n + 1) ((c :: w) :: r) l s) with
  | mk s' o => cases o <;> rfl

theorem run_include {l f : Str} (h : IncludeLine l f) (rest : List Str) (n : Nat) (s : PState C) :
    run cfg disp inc (l :: rest) n s = match handleInclude cfg inc f s with
      | (s, none) => run cfg disp inc rest (n + 1) s
      | (s, some e) => (s, some e) := by
  obtain ⟨h1, hf, r, h2⟩ := h
  rw [run_cons (ne_nil_of_not_blank h1), step]
  simp only [h1, h2, Bool.false_eq_true, if_false, if_true, List.headD_cons, hf]
  cases handleInclude cfg inc f s with
  | mk s' o => cases o <;> rfl

theorem run_header {l name : Str} {args : List Str} (h : HeaderLine l name args) (rest : List Str) (n : Nat)
    (s : PState C) (hs : s.state = none) :
    run cfg disp inc (l :: rest) n s =
      match openSection cfg (n + 1) name s with
      | (s, some e) => (s, some e)
      | (s, none) =>
        match tryFunc cfg (handleHeader cfg name (n + 1) (name :: args) s) with
        | (s, some e) => (s, some e)
        | (s, none) =>
          match readSection cfg inc name rest (n + 1) s with
          | (s, .error e) => (s, some e)
          | (s, .ok (n, rest)) => run cfg disp inc rest n s := by
  obtain ⟨h1, h2, h3, h4, h5⟩ := h
  have hh : name.head? = some '%' := by
    obtain ⟨t, rfl⟩ := startsWith_iff.1 h3
    rfl
  rw [run_cons (ne_nil_of_not_blank h1), step]
  simp only [h1, h2, h4, h5, hs, hh, Bool.false_eq_true, if_false, if_true]
  cases openSection cfg (n + 1) name s with
  | mk s1 o =>
    cases o with
    | some e => rfl
    | none =>
      simp only
      cases tryFunc cfg (handleHeader cfg name (n + 1) (name :: args) s1) with
      | mk s2 o =>
        cases o with
        | some e => rfl
        | none =>
          simp only
          rcases readSection cfg inc name rest (n + 1) s2 with ⟨s3, e | ⟨m, r⟩⟩ <;> rfl

theorem openSection_known {name : Str} {o : SecObj} {s : PState C} (h : s.sec name = some o) (n : Nat) :
    openSection cfg n name s = ({ s with state := some name }, none) := by
  rw [openSection, if_pos (by simp [PState.valid, h])]

/-- The warning of `%traceback` (`sections.py:434-448`). -/
def scriptWarns (v : Nat) (t : ScriptType) : List Warn :=
  if t = .traceback ∧ v ≥ Version.F34 then [.deprecation c!"%traceback"] else []

/-- A closed script section, from header to `%end`, if the lines `kept` of its body reach the buffer. -/
theorem run_script_gen {hdr name : Str} {args : List Str} (h : HeaderLine hdr name args)
    {t : ScriptType} {k : Nat} {b b' : ScriptBuf} {s : PState C} (hst : s.state = none)
    (hs : s.sec name = some (.script t k b)) (n : Nat) (hh : b.header t (n + 1) args = .ok b')
    {body kept : List Str}
    (hb : ∀ s' : PState C, s'.tags = s.tags → s'.sec name = some (.script t (k + 1) b') → ∀ rest m,
      readSection cfg inc name (body ++ rest) m s' =
        readSection cfg inc name rest (m + body.length) (s'.setSec name (.script t (k + 1) { b' with body := b'.body ++ kept })))
    {endl : Str} (he : EndLine endl) (rest : List Str) :
    run cfg disp inc (hdr :: (body ++ endl :: rest)) n s =
      run cfg disp inc rest (n + body.length + 2)
        { s with
          sections := assocSet name (.script t (k + 1) ({ b' with body := b'.body ++ kept }.finalize t).2) s.sections
          scripts := s.scripts ++ ({ b' with body := b'.body ++ kept }.finalize t).1.toList
          warnings := s.warnings ++ scriptWarns cfg.version t
          state := none } := by
  rw [run_header h _ _ _ hst, openSection_known hs]
  have e1 : handleHeader cfg name (n + 1) (name :: args) { s with state := some name } =
      ({ s.setSec name (.script t (k + 1) b') with state := some name, warnings := s.warnings ++ scriptWarns cfg.version t }, none) := by
    have : ({ s with state := some name } : PState C).sec name = some (.script t k b) := hs
    simp only [handleHeader, this, List.tail_cons, hh, scriptWarns]
    split
    · rfl
    · simp [PState.setSec]
  have htags : ({ s.setSec name (.script t (k + 1) b') with state := some name, warnings := s.warnings ++ scriptWarns cfg.version t } : PState C).tags = s.tags :=
    tags_setSec (mem_tags_of_sec hs)
  have hsec : ({ s.setSec name (.script t (k + 1) b') with state := some name, warnings := s.warnings ++ scriptWarns cfg.version t } : PState C).sec name = some (.script t (k + 1) b') := by
    have := sec_setSec s name name (.script t (k + 1) b')
    rw [if_pos rfl] at this
    exact this
  simp only [e1, tryFunc]
  rw [hb _ htags hsec, readSection_end he]
  simp only
  congr 1
  · omega
  · have hsec2 := sec_setSec ({ s.setSec name (.script t (k + 1) b') with state := some name, warnings := s.warnings ++ scriptWarns cfg.version t } : PState C) name name (.script t (k + 1) { b' with body := b'.body ++ kept })
    rw [if_pos rfl] at hsec2
    unfold finalize
    rw [hsec2]
    simp only [PState.setSec, assocSet_assocSet]
    cases ({ b' with body := b'.body ++ kept } : ScriptBuf).finalize t with
    | mk o bf => cases o <;> simp

/-- A closed script section, from header to `%end`. -/
theorem run_script {hdr name : Str} {args : List Str} (h : HeaderLine hdr name args)
    {t : ScriptType} {k : Nat} {b b' : ScriptBuf} {s : PState C} (hst : s.state = none)
    (hs : s.sec name = some (.script t k b)) (n : Nat) (hh : b.header t (n + 1) args = .ok b')
    {body : List Str} (hb : ∀ l ∈ body, PlainLine s.tags l) {endl : Str} (he : EndLine endl) (rest : List Str) :
    run cfg disp inc (hdr :: (body ++ endl :: rest)) n s =
      run cfg disp inc rest (n + body.length + 2)
        { s with
          sections := assocSet name (.script t (k + 1) ({ b' with body := b'.body ++ body }.finalize t).2) s.sections
          scripts := s.scripts ++ ({ b' with body := b'.body ++ body }.finalize t).1.toList
          warnings := s.warnings ++ scriptWarns cfg.version t
          state := none } :=
  run_script_gen h hst hs n hh (fun s' ht hs' rest m => readSection_script hs' body (by rw [ht]; exact hb) rest m) he rest

/-- A closed pass-through section that is registered. -/
theorem run_null {hdr name : Str} {args : List Str} (h : HeaderLine hdr name args)
    {a b : List Str} {s : PState C} (hst : s.state = none)
    (hs : s.sec name = some (.null a b)) (n : Nat)
    {body : List Str} (hb : ∀ l ∈ body, PlainLine s.tags l) {endl : Str} (he : EndLine endl) (rest : List Str) :
    run cfg disp inc (hdr :: (body ++ endl :: rest)) n s =
      run cfg disp inc rest (n + body.length + 2)
        { s with
          sections := assocSet name (.null [] []) s.sections
          nullStrings := s.nullStrings ++ [nullString (name :: args) (b ++ body)]
          state := none } := by
  rw [run_header h _ _ _ hst, openSection_known hs]
  have e1 : handleHeader cfg name (n + 1) (name :: args) { s with state := some name } =
      ({ s.setSec name (.null (name :: args) b) with state := some name }, none) := by
    have : ({ s with state := some name } : PState C).sec name = some (.null a b) := hs
    simp only [handleHeader, this]
    rfl
  have htags : ({ s.setSec name (.null (name :: args) b) with state := some name } : PState C).tags = s.tags :=
    tags_setSec (mem_tags_of_sec hs)
  have hsec : ({ s.setSec name (.null (name :: args) b) with state := some name } : PState C).sec name = some (.null (name :: args) b) := by
    have := sec_setSec s name name (.null (name :: args) b)
    rw [if_pos rfl] at this
    exact this
  simp only [e1, tryFunc]
  rw [readSection_null hsec body (by rw [htags]; exact hb), readSection_end he]
  simp only
  congr 1
  · omega
  · have hsec2 := sec_setSec ({ s.setSec name (.null (name :: args) b) with state := some name } : PState C) name name (.null (name :: args) (b ++ body))
    rw [if_pos rfl] at hsec2
    unfold finalize
    rw [hsec2]
    simp only [PState.setSec, assocSet_assocSet]

/-- A closed `%packages` section. -/
theorem run_packages {hdr name : Str} {args : List Str} (h : HeaderLine hdr name args)
    {k : Nat} {s : PState C} (hst : s.state = none)
    (hs : s.sec name = some (.packages k)) (n : Nat) {p p' : Packages}
    (hh : s.packages.header cfg.version (n + 1) args = (p, none))
    {body : List Str} (hb : ∀ l ∈ body, PlainLine s.tags l) (hf : feedPackages body p = (p', none))
    {endl : Str} (he : EndLine endl) (rest : List Str) :
    run cfg disp inc (hdr :: (body ++ endl :: rest)) n s =
      run cfg disp inc rest (n + body.length + 2)
        { s with
          sections := assocSet name (.packages (k + 1)) s.sections
          packages := p'
          warnings := s.warnings ++ packagesWarnings cfg.version (n + 1) args s.packages
          state := none } := by
  rw [run_header h _ _ _ hst, openSection_known hs]
  have e1 : handleHeader cfg name (n + 1) (name :: args) { s with state := some name } =
      ({ s.setSec name (.packages (k + 1)) with state := some name, packages := p, warnings := s.warnings ++ packagesWarnings cfg.version (n + 1) args s.packages }, none) := by
    have : ({ s with state := some name } : PState C).sec name = some (.packages k) := hs
    simp only [handleHeader, this, List.tail_cons]
    simp only [PState.setSec, hh]
  have hsec := sec_setSec s name name (.packages (k + 1))
  rw [if_pos rfl] at hsec
  have htags : (s.setSec name (.packages (k + 1))).tags = s.tags := tags_setSec (mem_tags_of_sec hs)
  simp only [e1, tryFunc]
  generalize h2 : ({ s.setSec name (.packages (k + 1)) with state := some name, packages := p, warnings := s.warnings ++ packagesWarnings cfg.version (n + 1) args s.packages } : PState C) = s2
  have hsec2 : s2.sec name = some (.packages (k + 1)) := by rw [← h2]; exact hsec
  have htags2 : s2.tags = s.tags := by rw [← h2]; exact htags
  have hp2 : s2.packages = p := by rw [← h2]
  rw [readSection_packages hsec2 body (by rw [htags2]; exact hb), hp2]
  simp only [hf]
  rw [readSection_end he]
  simp only
  congr 1
  · omega
  · unfold finalize
    have : ({ s2 with packages := p' } : PState C).sec name = some (.packages (k + 1)) := hsec2
    simp only [this]
    rw [← h2]
    rfl

/-! ## One line at a time -/

/-- What `_readSection` does with one line: leave the loop, or go on with the next line. -/
inductive SecStep (C : Type)
  | stop (r : PState C × Except Exc (Nat × List Str))
  | go (s : PState C)

def SecStep.ofRes : Res (PState C) → SecStep C
  | (s, some e) => .stop (s, .error e)
  | (s, none) => .go s

/-- The body of the loop of `readSection`. -/
def secStep (cfg : Cfg) (inc : Str → PState C → Res (PState C)) (name line : Str) (rest : List Str) (n : Nat)
    (s : PState C) : SecStep C :=
  if line = [] ∧ s.includeDepth = 0 ∧ cfg.version ≥ Version.F8 then .stop (s, .error (unclosed n))
  else
    let s := if line = [] ∧ s.includeDepth = 0 then finalize name s else s
    if isBlankOrComment line ∧ (s.sec name).map (·.allLines) ≠ some true then .go s
    else if startsWith (lstrip line) c!"%" then
      if ¬ s.valid ((splitWs line).headD []) ∧ (splitWs line).headD [] ≠ c!"%end" ∧ (splitWs line).headD [] ≠ c!"%include" then
        .ofRes (handleLine name line s)
      else
        match shlexSplit line false with
        | .error e => .stop (s, .error (.shlex e))
        | .ok [] => .go s
        | .ok (cmd :: args) =>
          if cmd = c!"%end" then .stop (finalize name s, .ok (n + 1, rest))
          else if cmd = c!"%include" then
            if args.headD [] = [] then .stop (s, .error (.parse [] (some ↑(n + 1))))
            else .ofRes (handleInclude cfg inc (args.headD []) s)
          else if cmd = c!"%ksappend" then .go s
          else if s.valid cmd then
            if cfg.version ≥ Version.F8 then .stop (s, .error (unclosed (n + 1)))
            else .stop (finalize name s, .ok (n, line :: rest))
          else .go s
    else .ofRes (handleLine name line s)

theorem readSection_cons (cfg : Cfg) (inc : Str → PState C → Res (PState C)) (name line : Str) (rest : List Str) (n : Nat) (s : PState C) :
    readSection cfg inc name (line :: rest) n s =
      match secStep cfg inc name line rest n s with
      | .stop r => r
      | .go s => readSection cfg inc name rest (n + 1) s := by
  have hres : ∀ r : Res (PState C), (match r with
      | (s, some e) => (s, .error e)
      | (s, none) => readSection cfg inc name rest (n + 1) s) = (match SecStep.ofRes r with
      | .stop r => r
      | .go s => readSection cfg inc name rest (n + 1) s) := by
    rintro ⟨s, _ | e⟩ <;> rfl
  rw [readSection]
  unfold secStep
  simp only
  by_cases h1 : line = [] ∧ s.includeDepth = 0 ∧ cfg.version ≥ Version.F8
  · rw [if_pos h1, if_pos h1]
  · rw [if_neg h1, if_neg h1]
    generalize (if line = [] ∧ s.includeDepth = 0 then finalize name s else s) = s1
    by_cases h2 : isBlankOrComment line ∧ (s1.sec name).map (·.allLines) ≠ some true
    · rw [if_pos h2, if_pos h2]
    · rw [if_neg h2, if_neg h2]
      by_cases h3 : startsWith (lstrip line) c!"%" = true
      · rw [if_pos h3, if_pos h3]
        by_cases h4 : ¬ s1.valid ((splitWs line).headD []) ∧ (splitWs line).headD [] ≠ c!"%end" ∧ (splitWs line).headD [] ≠ c!"%include"
        · rw [if_pos h4, if_pos h4]; exact hres _
        · rw [if_neg h4, if_neg h4]
          cases shlexSplit line false with
          | error e => rfl
          | ok a =>
            cases a with
            | nil => rfl
            | cons cmd args =>
              simp only
              by_cases h5 : cmd = c!"%end"
              · rw [if_pos h5, if_pos h5]
              · rw [if_neg h5, if_neg h5]
                by_cases h6 : cmd = c!"%include"
                · rw [if_pos h6, if_pos h6]
                  by_cases h7 : args.headD [] = []
                  · rw [if_pos h7, if_pos h7]
                  · rw [if_neg h7, if_neg h7]; exact hres _
                · rw [if_neg h6, if_neg h6]
                  by_cases h7 : cmd = c!"%ksappend"
                  · rw [if_pos h7, if_pos h7]
                  · rw [if_neg h7, if_neg h7]
                    by_cases h8 : s1.valid cmd = true
                    · rw [if_pos h8, if_pos h8]
                      by_cases h9 : cfg.version ≥ Version.F8
                      · rw [if_pos h9, if_pos h9]
                      · rw [if_neg h9, if_neg h9]; simp
                    · rw [if_neg h8, if_neg h8]
      · rw [if_neg h3, if_neg h3]; exact hres _

end Ks
