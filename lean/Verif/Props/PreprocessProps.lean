import Verif.Preprocess
import Verif.PyStrLemmas
import Verif.Includes
/-!
# C43, C44: `%ksappend`

The specification is the relation `Becomes`: what a line of the input becomes.  The lines of a
text are its pieces up to and including each line break.
-/
namespace Ks

/-- The line is a `%ksappend` line. -/
def Appends (line : Str) : Prop := ∃ a t b, line = a ++ c!"%ksappend" ++ t ++ b ∧ a.all isSpace = true ∧ b.all isSpace = true ∧ Trimmed (c!"%ksappend" ++ t)

/-- The word after the first blank of the line, without the white space around the line. -/
def NamesUrl (line url : Str) : Prop :=
  ∃ a r, strip line = a ++ [' '] ++ url ++ r ∧ ' ' ∉ a ∧ ' ' ∉ url ∧ (r = [] ∨ r.head? = some ' ')

/-- The line becomes `out`. -/
def Becomes (load : Str → Except Exc Str) (line out : Str) : Prop :=
  (¬ Appends line ∧ out = line) ∨ (Appends line ∧ ∃ url, NamesUrl line url ∧ load url = .ok out)

/-- The lines become `outs`, one by one. -/
def BecomeAll (load : Str → Except Exc Str) : List Str → List Str → Prop
  | [], [] => True
  | l :: ls, o :: os => Becomes load l o ∧ BecomeAll load ls os
  | _, _ => False

/-- Line number `n` fails with `e`. -/
def Fails (load : Str → Except Exc Str) (n : Nat) (line : Str) (e : Exc) : Prop :=
  Appends line ∧
  (((¬ ∃ url, NamesUrl line url) ∧ e = .parse c!"Illegal url for %ksappend" (some n)) ∨
   ∃ url e', NamesUrl line url ∧ load url = .error e' ∧
     e = if e'.isKickstartError then .ks c!"Unable to open %ksappend file" (some n) else e')

theorem isKsappend_iff (line : Str) : isKsappend line = true ↔ Appends line := by
  unfold isKsappend Appends
  rw [startsWith_iff]
  constructor
  · rintro ⟨t, ht⟩
    obtain ⟨a, b, h1, h2, h3⟩ := strip_decomp line
    exact ⟨a, t, b, by rw [ht] at h1; simpa using h1, h2, h3, ht ▸ strip_trimmed line⟩
  · rintro ⟨a, t, b, h, ha, hb, ht⟩
    refine ⟨t, ?_⟩
    rw [h, show a ++ c!"%ksappend" ++ t ++ b = a ++ (c!"%ksappend" ++ t) ++ b by simp]
    rw [strip_padded ha hb ht]

theorem url_iff (line url : Str) : ksappendUrl line = some url ↔ NamesUrl line url := by
  unfold ksappendUrl NamesUrl
  generalize strip line = s
  constructor
  · intro h
    have hj := joinWith_splitOn ' ' s
    have hn := fun x hx => not_mem_of_mem_splitOn (sep := ' ') (s := s) (x := x) hx
    generalize splitOn ' ' s = l at *
    match l, h with
    | x :: y :: t, h =>
      simp at h
      subst h
      cases t with
      | nil => exact ⟨x, [], by rw [← hj]; simp [joinWith], hn _ (by simp), hn _ (by simp), .inl rfl⟩
      | cons z t => exact ⟨x, ' ' :: joinWith [' '] (z :: t), by rw [← hj]; simp [joinWith], hn _ (by simp), hn _ (by simp), .inr rfl⟩
  · rintro ⟨a, r, h, ha, hu, hr⟩
    rw [h, show a ++ [' '] ++ url ++ r = a ++ ' ' :: (url ++ r) by simp, splitOn_append_sep ha]
    rcases hr with rfl | hr
    · rw [List.append_nil, splitOn_no_sep hu]; rfl
    · cases r with
      | nil => cases hr
      | cons c t =>
        cases hr
        rw [splitOn_append_sep hu]; rfl

theorem becomes_det {load : Str → Except Exc Str} {l o o' : Str} (h : Becomes load l o) (h' : Becomes load l o') : o = o' := by
  rcases h with ⟨h1, rfl⟩ | ⟨h1, u, hu, ho⟩ <;> rcases h' with ⟨h1', rfl⟩ | ⟨h1', u', hu', ho'⟩
  · rfl
  · exact absurd h1' h1
  · exact absurd h1 h1'
  · rw [← url_iff] at hu hu'
    rw [hu] at hu'; cases hu'
    rw [ho] at ho'; cases ho'; rfl

/-- One line of the loop. -/
theorem loop_line {load : Str → Except Exc Str} {l : Str} (hl : l ≠ []) (rest : List Str) (n : Nat) (acc : Str) :
    (∃ out, Becomes load l out ∧ preprocessLoop load (l :: rest) n acc = preprocessLoop load rest (n + 1) (acc ++ out)) ∨
    (∃ e, Fails load (n + 1) l e ∧ preprocessLoop load (l :: rest) n acc = .error e) := by
  rw [preprocessLoop]
  rw [if_neg hl]
  by_cases hk : isKsappend l = true
  · have ha := (isKsappend_iff l).1 hk
    simp only [hk, not_true, if_false]
    cases hu : ksappendUrl l with
    | none =>
      refine .inr ⟨_, ⟨ha, .inl ⟨?_, rfl⟩⟩, rfl⟩
      rintro ⟨u, h⟩
      rw [← url_iff, hu] at h; cases h
    | some url =>
      have hu' := (url_iff l url).1 hu
      cases hlo : load url with
      | error e =>
        refine .inr ⟨_, ⟨ha, .inr ⟨url, e, hu', hlo, rfl⟩⟩, ?_⟩
        simp only [hlo]
        split <;> rfl
      | ok out => exact .inl ⟨out, .inr ⟨ha, url, hu', hlo⟩, by simp only [hlo]⟩
  · refine .inl ⟨l, .inl ⟨fun h => hk ((isKsappend_iff l).2 h), rfl⟩, ?_⟩
    simp [hk]

theorem fails_not_becomes {load : Str → Except Exc Str} {n : Nat} {l : Str} {e : Exc} (h : Fails load n l e) (out : Str) : ¬ Becomes load l out := by
  rintro (⟨h1, _⟩ | ⟨_, u, hu, ho⟩)
  · exact h1 h.1
  · rcases h.2 with ⟨h2, _⟩ | ⟨u', e', hu', he', _⟩
    · exact h2 ⟨u, hu⟩
    · rw [← url_iff] at hu hu'
      rw [hu] at hu'; cases hu'
      rw [ho] at he'; cases he'

theorem fails_det {load : Str → Except Exc Str} {n : Nat} {l : Str} {e e' : Exc} (h : Fails load n l e) (h' : Fails load n l e') : e = e' := by
  rcases h.2 with ⟨h2, rfl⟩ | ⟨u, x, hu, hx, rfl⟩ <;> rcases h'.2 with ⟨h2', rfl⟩ | ⟨u', x', hu', hx', rfl⟩
  · rfl
  · exact absurd ⟨u', hu'⟩ h2
  · exact absurd ⟨u, hu⟩ h2'
  · rw [← url_iff] at hu hu'
    rw [hu] at hu'; cases hu'
    rw [hx] at hx'; cases hx'; rfl

theorem loop_ok {load : Str → Except Exc Str} (ls : List Str) (hls : ∀ l ∈ ls, l ≠ []) (tail : List Str) (ht : tail = [] ∨ tail = [[]])
    (n : Nat) (acc out : Str) :
    preprocessLoop load (ls ++ tail) n acc = .ok out ↔ ∃ outs, BecomeAll load ls outs ∧ out = acc ++ outs.flatten := by
  induction ls generalizing n acc with
  | nil =>
    have : preprocessLoop load tail n acc = .ok acc := by rcases ht with rfl | rfl <;> simp [preprocessLoop]
    rw [List.nil_append, this]
    constructor
    · intro h; cases h; exact ⟨[], trivial, by simp⟩
    · rintro ⟨outs, h, rfl⟩
      cases outs with
      | nil => simp
      | cons => cases h
  | cons l ls ih =>
    have ih := fun n acc => ih (fun x hx => hls x (by simp [hx])) n acc
    rcases loop_line (load := load) (hls l (by simp)) (ls ++ tail) n acc with ⟨o, ho, he⟩ | ⟨e, hf, he⟩
    · rw [List.cons_append, he, ih]
      constructor
      · rintro ⟨outs, h, rfl⟩; exact ⟨o :: outs, ⟨ho, h⟩, by simp⟩
      · rintro ⟨outs, h, rfl⟩
        cases outs with
        | nil => cases h
        | cons o' outs => exact ⟨outs, h.2, by rw [becomes_det h.1 ho]; simp⟩
    · rw [List.cons_append, he]
      constructor
      · intro h; cases h
      · rintro ⟨outs, h, _⟩
        cases outs with
        | nil => cases h
        | cons o' outs => exact absurd h.1 (fails_not_becomes hf _)

theorem loop_error {load : Str → Except Exc Str} (ls : List Str) (hls : ∀ l ∈ ls, l ≠ []) (tail : List Str) (ht : tail = [] ∨ tail = [[]])
    (n : Nat) (acc : Str) (e : Exc) :
    preprocessLoop load (ls ++ tail) n acc = .error e ↔
      ∃ pre line post outs, ls = pre ++ line :: post ∧ BecomeAll load pre outs ∧ Fails load (n + pre.length + 1) line e := by
  induction ls generalizing n acc with
  | nil =>
    have : preprocessLoop load tail n acc = .ok acc := by rcases ht with rfl | rfl <;> simp [preprocessLoop]
    rw [List.nil_append, this]
    constructor
    · intro h; cases h
    · rintro ⟨pre, line, post, outs, h, _⟩; simp at h
  | cons l ls ih =>
    have ih := fun n acc => ih (fun x hx => hls x (by simp [hx])) n acc
    rcases loop_line (load := load) (hls l (by simp)) (ls ++ tail) n acc with ⟨o, ho, he⟩ | ⟨e', hf, he⟩
    · rw [List.cons_append, he, ih]
      constructor
      · rintro ⟨pre, line, post, outs, rfl, h, hf⟩
        refine ⟨l :: pre, line, post, o :: outs, rfl, ⟨ho, h⟩, ?_⟩
        rw [show n + (l :: pre).length + 1 = n + 1 + pre.length + 1 by simp; omega]; exact hf
      · rintro ⟨pre, line, post, outs, h, hx, hf⟩
        cases pre with
        | nil =>
          simp at h
          exact absurd ho (h.1 ▸ fails_not_becomes hf o)
        | cons p pre =>
          simp at h
          cases outs with
          | nil => cases hx
          | cons o' outs =>
            refine ⟨pre, line, post, outs, h.2, hx.2, ?_⟩
            rw [show n + 1 + pre.length + 1 = n + (p :: pre).length + 1 by simp; omega]; exact hf
    · rw [List.cons_append, he]
      constructor
      · intro h; cases h
        exact ⟨[], l, ls, [], rfl, trivial, hf⟩
      · rintro ⟨pre, line, post, outs, h, hx, hf'⟩
        cases pre with
        | nil =>
          simp at h
          rw [← h.1] at hf'
          rw [fails_det hf hf']
        | cons p pre =>
          simp at h
          cases outs with
          | nil => cases hx
          | cons o' outs => exact absurd hx.1 (h.1 ▸ fails_not_becomes hf o')

/-! ## C43 -/

/-- C43: the text that results is made of the expansions of the lines, in order, and there is a
result exactly when every line can be expanded.  The expansion of a line is a whole file: it is
not expanded again. -/
theorem C43_exact (load : Str → Except Exc Str) (text out : Str) :
    preprocessString load text = .ok out ↔ ∃ outs, BecomeAll load (splitLines text) outs ∧ out = outs.flatten := by
  have := loop_ok (load := load) _ (splitLines_line_ne_nil text) [[]] (.inr rfl) 0 [] out
  simpa [preprocessString] using this

/-- C43: a file is treated like its contents. -/
theorem C43_file (load : Str → Except Exc Str) (f text : Str) (h : load f = .ok text) :
    preprocessFile load f = preprocessString load text := by
  have h1 := fun r => loop_ok (load := load) _ (splitLines_line_ne_nil text) [] (.inl rfl) 0 [] r
  have h2 := fun r => loop_error (load := load) _ (splitLines_line_ne_nil text) [] (.inl rfl) 0 [] r
  have h3 := fun r => loop_ok (load := load) _ (splitLines_line_ne_nil text) [[]] (.inr rfl) 0 [] r
  have h4 := fun r => loop_error (load := load) _ (splitLines_line_ne_nil text) [[]] (.inr rfl) 0 [] r
  simp only [List.append_nil] at h1 h2
  unfold preprocessFile preprocessString
  rw [h]
  cases hr : preprocessLoop load (splitLines text) 0 [] with
  | ok r => exact (hr.trans ((h3 r).2 ((h1 r).1 hr)).symm : _)
  | error e => exact (hr.trans ((h4 e).2 ((h2 e).1 hr)).symm : _)

theorem becomeAll_same {load : Str → Except Exc Str} (ls : List Str) (h : ∀ l ∈ ls, ¬ Appends l) : BecomeAll load ls ls := by
  induction ls with
  | nil => trivial
  | cons l ls ih => exact ⟨.inl ⟨h l (by simp), rfl⟩, ih fun x hx => h x (by simp [hx])⟩

/-- C43: without `%ksappend` lines nothing changes, and nothing is loaded. -/
theorem C43_unchanged (load : Str → Except Exc Str) (text : Str) (h : ∀ l ∈ splitLines text, ¬ Appends l) :
    preprocessString load text = .ok text :=
  (C43_exact load text text).2 ⟨_, becomeAll_same _ h, (splitLines_flatten text).symm⟩

/-- C43: a `%ksappend` line, exactly. -/
theorem C43_replaced (load : Str → Except Exc Str) (before after : List Str) (url contents : Str)
    (hb : ∀ l ∈ before ++ after, ¬ Appends l ∧ ∃ b, NoBreak b ∧ l = b ++ ['\n'])
    (hu : url ≠ [] ∧ ∀ c ∈ url, isSpace c = false) (hnb : NoBreak url) (hload : load url = .ok contents) :
    preprocessString load (before.flatten ++ c!"%ksappend " ++ url ++ c!"\n" ++ after.flatten) =
      .ok (before.flatten ++ contents ++ after.flatten) := by
  have hlast : (c!"%ksappend " ++ url).getLast? = url.getLast? := by
    rw [List.getLast?_append]
    cases h : url.getLast? with
    | none => exact absurd (List.getLast?_eq_none_iff.1 h) hu.1
    | some c => rfl
  have htrim : Trimmed (c!"%ksappend " ++ url) :=
    ⟨fun c hc => by cases hc; decide, fun c hc => hu.2 c (List.mem_of_getLast? (hlast ▸ hc))⟩
  have hsp : ' ' ∉ url := fun hm => absurd (hu.2 _ hm) (by decide)
  have hstrip : strip (c!"%ksappend " ++ url ++ ['\n']) = c!"%ksappend " ++ url := by
    have := strip_padded (a := []) (b := ['\n']) rfl (by decide) htrim
    simpa using this
  have hexp : Becomes load (c!"%ksappend " ++ url ++ ['\n']) contents := by
    refine .inr ⟨⟨[], ' ' :: url, ['\n'], by simp, rfl, by decide, htrim⟩, url, ⟨c!"%ksappend", [], ?_, by decide, hsp, .inl rfl⟩, hload⟩
    rw [hstrip]; simp
  rw [C43_exact]
  refine ⟨before ++ contents :: after, ?_, by simp⟩
  have hlines : splitLines (before.flatten ++ c!"%ksappend " ++ url ++ c!"\n" ++ after.flatten) = before ++ (c!"%ksappend " ++ url ++ ['\n']) :: after := by
    rw [show before.flatten ++ c!"%ksappend " ++ url ++ c!"\n" ++ after.flatten = (before ++ (c!"%ksappend " ++ url ++ ['\n']) :: after).flatten by simp]
    refine splitLines_flatten_lines _ fun l hl => ?_
    rcases List.mem_append.1 hl with hl | hl
    · exact (hb l (by simp [hl])).2
    · rcases List.mem_cons.1 hl with rfl | hl
      · refine ⟨_, ?_, rfl⟩
        intro c hc
        rcases List.mem_append.1 hc with hc | hc
        · exact (by decide : ∀ c ∈ c!"%ksappend ", isLineBreak c = false) c hc
        · exact hnb c hc
      · exact (hb l (by simp [hl])).2
  rw [hlines]
  have key : ∀ (bs : List Str), (∀ l ∈ bs, ¬ Appends l) → BecomeAll load (bs ++ (c!"%ksappend " ++ url ++ ['\n']) :: after) (bs ++ contents :: after) := by
    intro bs hbs
    induction bs with
    | nil => exact ⟨hexp, becomeAll_same _ fun l hl => (hb l (by simp [hl])).1⟩
    | cons b bs ih => exact ⟨.inl ⟨hbs b (by simp), rfl⟩, ih fun x hx => hbs x (by simp [hx])⟩
  exact key before fun l hl => (hb l (by simp [hl])).1

/-- C43: a temporary file is written exactly when the result is not empty, with that result. -/
theorem C43_temp (r : Except Exc Str) (s : Str) : preprocessToTemp r = .ok (some s) ↔ r = .ok s ∧ s ≠ [] := by
  cases r with
  | error e => simp [preprocessToTemp]
  | ok t =>
    by_cases h : t = []
    · subst h; simp [preprocessToTemp]
    · simp only [preprocessToTemp, if_neg h, Except.ok.injEq, Option.some.injEq]
      constructor
      · rintro rfl; exact ⟨rfl, h⟩
      · rintro ⟨rfl, _⟩; rfl

/-- What is appended is not separated from what follows: without a line break at its end it runs
into the next line. -/
theorem C43_runs_together (load : Str → Except Exc Str) (h : load c!"a" = .ok c!"text") :
    preprocessString load c!"%ksappend a\nreboot\n" = .ok c!"textreboot\n" := by
  refine (C43_exact ..).2 ⟨[c!"text", c!"reboot\n"], ?_, rfl⟩
  rw [show splitLines c!"%ksappend a\nreboot\n" = [c!"%ksappend a\n", c!"reboot\n"] by decide]
  refine ⟨.inr ⟨(isKsappend_iff _).1 (by decide), c!"a", (url_iff _ _).1 (by decide), h⟩, .inl ⟨fun hc => ?_, rfl⟩, trivial⟩
  exact absurd ((isKsappend_iff _).2 hc) (by decide)

/-! ## C44 -/

/-- C44: which error is raised, and with which line number: that of the first line that can not be
expanded, counted from 1. -/
theorem C44_first_failure (load : Str → Except Exc Str) (text : Str) (e : Exc) :
    preprocessString load text = .error e ↔
      ∃ pre line post outs, splitLines text = pre ++ line :: post ∧ BecomeAll load pre outs ∧ Fails load (pre.length + 1) line e := by
  have := loop_error (load := load) _ (splitLines_line_ne_nil text) [[]] (.inr rfl) 0 [] e
  simpa [preprocessString] using this

/-- C44: when loading raises only `KickstartError`s, so does preprocessing, with a line number. -/
theorem C44_kickstart_error (load : Str → Except Exc Str) (hload : ∀ f e, load f = .error e → e.isKickstartError = true)
    (text : Str) (e : Exc) (h : preprocessString load text = .error e) :
    ∃ n, 1 ≤ n ∧ n ≤ (splitLines text).length ∧
      (e = .parse c!"Illegal url for %ksappend" (some n) ∨ e = .ks c!"Unable to open %ksappend file" (some n)) := by
  obtain ⟨pre, line, post, outs, hl, _, _, hf⟩ := (C44_first_failure load text e).1 h
  refine ⟨pre.length + 1, by omega, by rw [hl]; simp, ?_⟩
  rcases hf with ⟨_, rfl⟩ | ⟨u, e', _, he, rfl⟩
  · exact .inl rfl
  · rw [if_pos (hload _ _ he)]; exact .inr rfl

/-- C44: a file that can not be opened is a `KickstartError` with line number 0. -/
theorem C44_unreadable_input (load : Str → Except Exc Str) (f : Str) (e : Exc) (h : load f = .error e) (he : e.isKickstartError = true) :
    preprocessFile load f = .error (.ks c!"Unable to open input kickstart file" (some 0)) := by
  simp [preprocessFile, h, he]

/-! ## The hypotheses can be met -/

/-- Two files. -/
def appendWorld (f : Str) : Except Exc Str :=
  if f = c!"a.ks" then .ok c!"lang C\n%ksappend a.ks\n" else if f = c!"http://h/b" then .ok c!"reboot\n" else .error (.ks c!"no" none)

example : preprocessString appendWorld c!"text\n  %ksappend a.ks \t\n%ksappend http://h/b x\nhalt" =
    .ok c!"text\nlang C\n%ksappend a.ks\nreboot\nhalt" := by decide +kernel
example : preprocessString appendWorld c!"text\n%ksappend\n%ksappend c\n" = .error (.parse c!"Illegal url for %ksappend" (some 2)) := by decide +kernel
example : preprocessString appendWorld c!"text\n\n%ksappend c\n" = .error (.ks c!"Unable to open %ksappend file" (some 3)) := by decide +kernel
/-- The blank is not skipped: two blanks give an empty name. -/
example : NamesUrl c!"%ksappend  a.ks\n" [] := (url_iff _ _).1 (by decide +kernel)
example : ∀ l ∈ splitLines c!"text\n# %ksappend\n", ¬ Appends l := fun l hl => by
  rw [← isKsappend_iff]; revert l; decide +kernel
example : preprocessString appendWorld c!"text\n%ksappend a.ks\nhalt\n" = .ok c!"text\nlang C\n%ksappend a.ks\nhalt\n" :=
  C43_replaced appendWorld [c!"text\n"] [c!"halt\n"] c!"a.ks" c!"lang C\n%ksappend a.ks\n"
    (by intro l hl
        rw [← isKsappend_iff]
        simp at hl
        rcases hl with rfl | rfl
        · exact ⟨by decide +kernel, c!"text", by unfold NoBreak; decide, rfl⟩
        · exact ⟨by decide +kernel, c!"halt", by unfold NoBreak; decide, rfl⟩)
    (by decide) (by unfold NoBreak; decide) (by decide +kernel)

end Ks
