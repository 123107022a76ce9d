import Verif.Validator
import Verif.ParserLemmas
/-!
# Lemmas: reading with warnings raised and reading without

`Corr s a a'` relates what an action makes of `s` under Python's default filter (`a`) and with
warnings raised (`a'`).
-/
namespace Ks

variable {C : Type}

/-- What raising warnings makes of an action with the result `r` which warns iff `w`: nothing if it
does not warn; otherwise it raises. -/
def Raised {σ : Type} (w : Prop) (r r' : Res σ) : Prop := (¬ w → r' = r) ∧ (w → r'.2 ≠ none)

/-- `disp'` and `header'` are what the commands and the section headers do while warnings are
raised.  `warned c` is the number of warnings the commands have issued. -/
structure RaisedBy (cfg : Cfg) (warned : C → Nat) (disp disp' : Disp C) (header' : Header C) : Prop where
  /-- commands issue warnings, they do not take them back -/
  grow : ∀ n args line c, warned c ≤ warned (disp n args line c).1
  disp : ∀ n args line c,
    Raised (warned (disp n args line c).1 ≠ warned c) (disp n args line c) (disp' n args line c)
  header : ∀ name n args s,
    Raised ((handleHeader cfg name n args s).1.warnings ≠ s.warnings) (handleHeader cfg name n args s)
      (header' name n args s)
  /-- the header of a section does not touch the parser's `errorsCount` -/
  count : ∀ name n args s, (header' name n args s).1.errorsCount = s.errorsCount

/-- No exception, no error counted and no warning since `s`. -/
def NoTrouble (warned : C → Nat) (s : PState C) {α : Type} (a : PState C × Except Exc α) : Prop :=
  (∃ x, a.2 = .ok x) ∧ a.1.errorsCount = s.errorsCount ∧ a.1.warnings.length = s.warnings.length ∧
    warned a.1.cmds = warned s.cmds

structure Corr (warned : C → Nat) (s : PState C) {α : Type} (a a' : PState C × Except Exc α) : Prop where
  errs : s.errorsCount ≤ a.1.errorsCount
  warns : s.warnings.length ≤ a.1.warnings.length
  cmds : warned s.cmds ≤ warned a.1.cmds
  errs' : s.errorsCount ≤ a'.1.errorsCount
  same : NoTrouble warned s a → a' = a
  back : (∃ x, a'.2 = .ok x) → a'.1.errorsCount = s.errorsCount → NoTrouble warned s a

/-- Sequencing with exceptions. -/
def bnd {α β : Type} (a : PState C × Except Exc α) (k : α → PState C → PState C × Except Exc β) : PState C × Except Exc β :=
  match a with
  | (t, .ok x) => k x t
  | (t, .error e) => (t, .error e)

variable {warned : C → Nat} {s : PState C}

theorem Corr.bind {α β : Type} {a a' : PState C × Except Exc α} (h : Corr warned s a a')
    {k k' : α → PState C → PState C × Except Exc β} (hk : ∀ x t, Corr warned t (k x t) (k' x t)) :
    Corr warned s (bnd a k) (bnd a' k') := by
  obtain ⟨t, o⟩ := a
  obtain ⟨t', o'⟩ := a'
  have he := h.errs; have hw := h.warns; have hc := h.cmds; have he' := h.errs'
  simp only at he hw hc he'
  refine ⟨?_, ?_, ?_, ?_, ?_, ?_⟩
  · cases o with
    | error e => exact he
    | ok x => exact Nat.le_trans he (hk x t).errs
  · cases o with
    | error e => exact hw
    | ok x => exact Nat.le_trans hw (hk x t).warns
  · cases o with
    | error e => exact hc
    | ok x => exact Nat.le_trans hc (hk x t).cmds
  · cases o' with
    | error e => exact he'
    | ok x => exact Nat.le_trans he' (hk x t').errs'
  · intro hq
    cases o with
    | error e => obtain ⟨⟨_, h0⟩, _⟩ := hq; exact absurd h0 (by simp [bnd])
    | ok x =>
      have hx := hk x t
      have h1 := hx.errs; have h2 := hx.warns; have h3 := hx.cmds
      obtain ⟨h0, q1, q2, q3⟩ := hq
      simp only [bnd] at h0 q1 q2 q3 ⊢
      have hs := h.same ⟨⟨x, rfl⟩, by simp only; omega, by simp only; omega, by simp only; omega⟩
      rw [Prod.mk.injEq] at hs
      obtain ⟨rfl, rfl⟩ := hs
      exact hx.same ⟨h0, by omega, by omega, by omega⟩
  · intro h0 q1
    cases o' with
    | error e => obtain ⟨_, h0⟩ := h0; exact absurd h0 (by simp [bnd])
    | ok x =>
      have h1 := (hk x t').errs'
      simp only [bnd] at h0 q1
      have hq := h.back ⟨x, rfl⟩ (by simp only; omega)
      have hs := h.same hq
      rw [Prod.mk.injEq] at hs
      obtain ⟨rfl, rfl⟩ := hs
      obtain ⟨_, p1, p2, p3⟩ := hq
      simp only at p1 p2 p3
      obtain ⟨q0, q1, q2, q3⟩ := (hk x t').back h0 (by omega)
      exact ⟨q0, by simp only [bnd]; omega, by simp only [bnd]; omega, by simp only [bnd]; omega⟩

/-- An action that neither counts nor warns, and is the same with warnings raised. -/
theorem Corr.quiet {α : Type} (a : PState C × Except Exc α) (h1 : a.1.errorsCount = s.errorsCount)
    (h2 : a.1.warnings = s.warnings) (h3 : a.1.cmds = s.cmds) : Corr warned s a a :=
  ⟨Nat.le_of_eq h1.symm, by rw [h2]; exact Nat.le_refl _, by rw [h3]; exact Nat.le_refl _, Nat.le_of_eq h1.symm, fun _ => rfl, fun h0 _ => ⟨h0, h1, by rw [h2], by rw [h3]⟩⟩

/-- Start from a state with the same counters. -/
theorem Corr.from {α : Type} {t : PState C} {a a' : PState C × Except Exc α} (h : Corr warned t a a')
    (h1 : t.errorsCount = s.errorsCount) (h2 : t.warnings = s.warnings) (h3 : t.cmds = s.cmds) : Corr warned s a a' := by
  obtain ⟨p1, p2, p3, p4, p5, p6⟩ := h
  rw [h1] at p1 p4 p6
  rw [h2] at p2
  rw [h3] at p3
  simp only [NoTrouble, h1, h2, h3] at p5 p6
  exact ⟨p1, p2, p3, p4, p5, p6⟩

theorem Corr.cast {α : Type} {a a' b b' : PState C × Except Exc α} (h : a = b) (h' : a' = b') (hc : Corr warned s b b') :
    Corr warned s a a' := by
  rw [h, h']; exact hc

/-- A result as a value or an exception. -/
def toE : Res (PState C) → PState C × Except Exc Unit
  | (s, none) => (s, .ok ())
  | (s, some e) => (s, .error e)

/-- What one round of the loop gives. -/
def Step.toE : Step C → PState C × Except Exc (Option (Nat × List Str))
  | .stop (s, none) => (s, .ok none)
  | .stop (s, some e) => (s, .error e)
  | .next n rest s => (s, .ok (some (n, rest)))

theorem handleLine_counts (name line : Str) (s : PState C) :
    (handleLine name line s).1.errorsCount = s.errorsCount ∧ (handleLine name line s).1.warnings = s.warnings ∧
    (handleLine name line s).1.cmds = s.cmds := by
  unfold handleLine
  split <;> exact ⟨rfl, rfl, rfl⟩

theorem finalize_counts (name : Str) (s : PState C) :
    (finalize name s).errorsCount = s.errorsCount ∧ (finalize name s).warnings = s.warnings ∧
    (finalize name s).cmds = s.cmds := by
  unfold finalize
  simp only
  split
  · simp only [PState.setSec]; split <;> exact ⟨rfl, rfl, rfl⟩
  · exact ⟨rfl, rfl, rfl⟩
  · exact ⟨rfl, rfl, rfl⟩

/-- The commands and headers themselves do not count errors. -/
theorem handleHeader_counts (cfg : Cfg) (name : Str) (n : Nat) (args : List Str) (s : PState C) :
    (handleHeader cfg name n args s).1.errorsCount = s.errorsCount ∧ (handleHeader cfg name n args s).1.cmds = s.cmds ∧
    ∃ w, (handleHeader cfg name n args s).1.warnings = s.warnings ++ w := by
  unfold handleHeader
  split
  · exact ⟨rfl, rfl, [], by simp⟩
  · split
    · exact ⟨rfl, rfl, [], by simp [PState.setSec]⟩
    · simp only
      split
      · exact ⟨rfl, rfl, _, rfl⟩
      · exact ⟨rfl, rfl, [], by simp [PState.setSec]⟩
  · exact ⟨rfl, rfl, _, rfl⟩
  · exact ⟨rfl, rfl, [], by simp [PState.setSec]⟩

theorem handleInclude_corr {cfg : Cfg} (hm : cfg.missingIncludeIsFatal = true) {inc inc' : Str → PState C → Res (PState C)}
    (hi : ∀ f s, Corr warned s (toE (inc f s)) (toE (inc' f s))) (f : Str) (s : PState C) :
    Corr warned s (toE (handleInclude cfg inc f s)) (toE (handleInclude cfg inc' f s)) := by
  by_cases hf : cfg.followIncludes = true
  · have key : ∀ i : Str → PState C → Res (PState C),
        toE (handleInclude cfg i f s) =
        bnd (toE (i f { s with includeDepth := s.includeDepth + 1 })) fun _ s =>
          ({ s with includeDepth := s.includeDepth - 1 }, .ok ()) := by
      intro i
      unfold handleInclude
      simp only [hf, not_true_eq_false, if_false, hm, and_false]
      cases i f { s with includeDepth := s.includeDepth + 1 } with
      | mk t o => cases o <;> rfl
    rw [key, key]
    refine ((hi f _).bind fun _ t => ?_).from rfl rfl rfl
    exact .quiet _ rfl rfl rfl
  · have key : ∀ i : Str → PState C → Res (PState C), handleInclude cfg i f s = (s, none) := by
      intro i
      unfold handleInclude
      simp [hf]
    rw [key, key]
    exact .quiet _ rfl rfl rfl

/-- What one line of a section gives. -/
def SecStep.toE : SecStep C → PState C × Except Exc (Option (Nat × List Str))
  | .stop (s, .ok x) => (s, .ok (some x))
  | .stop (s, .error e) => (s, .error e)
  | .go s => (s, .ok none)

theorem secStep_corr {cfg : Cfg} (hm : cfg.missingIncludeIsFatal = true) {inc inc' : Str → PState C → Res (PState C)}
    (hi : ∀ f s, Corr warned s (toE (inc f s)) (toE (inc' f s))) (name line : Str) (rest : List Str) (n : Nat) (s : PState C) :
    Corr warned s (secStep cfg inc name line rest n s).toE (secStep cfg inc' name line rest n s).toE := by
  have hres : ∀ r : Res (PState C), (SecStep.ofRes r).toE = bnd (toE r) fun _ s => (s, .ok none) := by
    rintro ⟨s, _ | e⟩ <;> rfl
  unfold secStep
  simp only
  by_cases h1 : line = [] ∧ s.includeDepth = 0 ∧ cfg.version ≥ Version.F8
  · rw [if_pos h1, if_pos h1]; exact .quiet _ rfl rfl rfl
  · rw [if_neg h1, if_neg h1]
    have hs : (if line = [] ∧ s.includeDepth = 0 then finalize name s else s).errorsCount = s.errorsCount ∧
        (if line = [] ∧ s.includeDepth = 0 then finalize name s else s).warnings = s.warnings ∧
        (if line = [] ∧ s.includeDepth = 0 then finalize name s else s).cmds = s.cmds := by
      split
      · exact finalize_counts name s
      · exact ⟨rfl, rfl, rfl⟩
    generalize (if line = [] ∧ s.includeDepth = 0 then finalize name s else s) = s1 at hs ⊢
    obtain ⟨e1, e2, e3⟩ := hs
    refine Corr.from (t := s1) ?_ e1 e2 e3
    have fin := finalize_counts name s1
    have hl : Corr warned s1 (SecStep.ofRes (handleLine name line s1)).toE (SecStep.ofRes (handleLine name line s1)).toE := by
      obtain ⟨h1, h2, h3⟩ := handleLine_counts name line s1
      cases h : handleLine name line s1 with
      | mk t o =>
        rw [h] at h1 h2 h3
        cases o <;> exact .quiet _ h1 h2 h3
    by_cases h2 : isBlankOrComment line ∧ (s1.sec name).map (·.allLines) ≠ some true
    · rw [if_pos h2, if_pos h2]; exact .quiet _ rfl rfl rfl
    · rw [if_neg h2, if_neg h2]
      by_cases h3 : startsWith (lstrip line) c!"%" = true
      · rw [if_pos h3, if_pos h3]
        by_cases h4 : ¬ s1.valid ((splitWs line).headD []) ∧ (splitWs line).headD [] ≠ c!"%end" ∧ (splitWs line).headD [] ≠ c!"%include"
        · rw [if_pos h4, if_pos h4]; exact hl
        · rw [if_neg h4, if_neg h4]
          cases shlexSplit line false with
          | error e => exact .quiet _ rfl rfl rfl
          | ok a =>
            cases a with
            | nil => exact .quiet _ rfl rfl rfl
            | cons cmd args =>
              simp only
              by_cases h5 : cmd = c!"%end"
              · rw [if_pos h5, if_pos h5]; exact .quiet _ fin.1 fin.2.1 fin.2.2
              · rw [if_neg h5, if_neg h5]
                by_cases h6 : cmd = c!"%include"
                · rw [if_pos h6, if_pos h6]
                  by_cases h7 : args.headD [] = []
                  · rw [if_pos h7, if_pos h7]; exact .quiet _ rfl rfl rfl
                  · rw [if_neg h7, if_neg h7, hres, hres]
                    exact (handleInclude_corr hm hi _ _).bind fun _ _ => .quiet _ rfl rfl rfl
                · rw [if_neg h6, if_neg h6]
                  by_cases h7 : cmd = c!"%ksappend"
                  · rw [if_pos h7]; exact .quiet _ rfl rfl rfl
                  · rw [if_neg h7]
                    by_cases h8 : s1.valid cmd = true
                    · rw [if_pos h8]
                      split
                      · exact .quiet _ rfl rfl rfl
                      · exact .quiet _ fin.1 fin.2.1 fin.2.2
                    · rw [if_neg h8]; exact .quiet _ rfl rfl rfl
      · rw [if_neg h3, if_neg h3]; exact hl

theorem readSection_corr {cfg : Cfg} (hm : cfg.missingIncludeIsFatal = true) {inc inc' : Str → PState C → Res (PState C)}
    (hi : ∀ f s, Corr warned s (toE (inc f s)) (toE (inc' f s))) (name : Str) (l : List Str) :
    ∀ (n : Nat) (s : PState C), Corr warned s (readSection cfg inc name l n s) (readSection cfg inc' name l n s) := by
  induction l with
  | nil => intro n s; exact .quiet _ rfl rfl rfl
  | cons line rest ih =>
    intro n s
    have key : ∀ (st : SecStep C) (k : PState C → PState C × Except Exc (Nat × List Str)),
        (match st with
          | .stop r => r
          | .go s => k s) =
        bnd st.toE fun o s => match o with
          | some x => (s, .ok x)
          | none => k s := by
      intro st k
      cases st with
      | stop r =>
        obtain ⟨t, o⟩ := r
        cases o <;> rfl
      | go s => rfl
    refine .cast ((readSection_cons ..).trans (key _ _)) ((readSection_cons ..).trans (key _ _)) ?_
    refine (secStep_corr hm hi name line rest n s).bind fun o t => ?_
    cases o with
    | some x => exact .quiet _ rfl rfl rfl
    | none => exact ih _ _

/-- `_tryFunc` around an action whose warnings are raised. -/
theorem tryFunc_corr {cfg : Cfg} {w : Prop} {r r' : Res (PState C)} (h : Raised w r r')
    (h1 : r.1.errorsCount = s.errorsCount) (h1' : r'.1.errorsCount = s.errorsCount)
    (h2 : s.warnings.length ≤ r.1.warnings.length) (h3 : warned s.cmds ≤ warned r.1.cmds)
    (hw : w ↔ ¬ (r.1.warnings.length = s.warnings.length ∧ warned r.1.cmds = warned s.cmds)) :
    Corr warned s (toE (tryFunc cfg r)) (toE (tryFunc cfg r')) := by
  obtain ⟨t, o⟩ := r
  obtain ⟨t', o'⟩ := r'
  obtain ⟨ha, hb⟩ := h
  simp only at h1 h1' h2 h3 hw ha hb
  refine ⟨?_, ?_, ?_, ?_, ?_, ?_⟩
  · cases o with
    | none => exact Nat.le_of_eq h1.symm
    | some e => simp only [tryFunc]; split <;> (simp only [toE]; omega)
  · cases o with
    | none => exact h2
    | some e => simp only [tryFunc]; split <;> exact h2
  · cases o with
    | none => exact h3
    | some e => simp only [tryFunc]; split <;> exact h3
  · cases o' with
    | none => exact Nat.le_of_eq h1'.symm
    | some e => simp only [tryFunc]; split <;> (simp only [toE]; omega)
  · intro hq
    cases o with
    | none =>
      obtain ⟨_, _, q2, q3⟩ := hq
      rw [ha (fun h => hw.mp h ⟨q2, q3⟩)]
    | some e =>
      obtain ⟨_, q1, _, _⟩ := hq
      simp only [tryFunc] at q1
      split at q1 <;> (simp only [toE] at q1; omega)
  · intro h0 q1
    cases o' with
    | some e =>
      simp only [tryFunc] at q1
      split at q1 <;> (simp only [toE] at q1; omega)
    | none =>
      have hn : ¬ w := fun h => hb h rfl
      have := ha hn
      rw [Prod.mk.injEq] at this
      obtain ⟨rfl, rfl⟩ := this
      have hw' := Classical.not_not.mp fun h => hn (hw.mpr h)
      exact ⟨⟨(), rfl⟩, h1, hw'.1, hw'.2⟩

section
variable {cfg : Cfg} {disp disp' : Disp C} {header' : Header C}

theorem stepBy_corr (hm : cfg.missingIncludeIsFatal = true) (hu : cfg.unknownSectionIsFatal = true)
    (hr : RaisedBy cfg warned disp disp' header') {inc inc' : Str → PState C → Res (PState C)}
    (hi : ∀ f s, Corr warned s (toE (inc f s)) (toE (inc' f s))) (line : Str) (rest : List Str) (n : Nat) (s : PState C) :
    Corr warned s (stepBy (handleHeader cfg) cfg disp inc line rest n s).toE
      (stepBy header' cfg disp' inc' line rest n s).toE := by
  have hres : ∀ (n : Nat) (l : List Str) (r : Res (PState C)),
      (Step.ofRes n l r).toE = bnd (toE r) fun _ s => (s, .ok (some (n, l))) := by
    intro n l r
    obtain ⟨t, o⟩ := r
    cases o <;> rfl
  have hsec : ∀ (r : PState C × Except Exc (Nat × List Str)),
      (Step.ofSection r).toE = bnd r fun x s => (s, .ok (some x)) := by
    intro r
    obtain ⟨t, o⟩ := r
    cases o <;> rfl
  have hsp : (specialComment line s).errorsCount = s.errorsCount ∧ (specialComment line s).warnings = s.warnings ∧
      (specialComment line s).cmds = s.cmds := by
    unfold specialComment
    split
    · exact ⟨rfl, rfl, rfl⟩
    · split <;> exact ⟨rfl, rfl, rfl⟩
  unfold stepBy
  simp only
  split
  · exact .quiet _ hsp.1 hsp.2.1 hsp.2.2
  · split
    · exact .quiet _ rfl rfl rfl
    · exact .quiet _ rfl rfl rfl
    · rename_i cmd args _
      split
      · split
        · exact .quiet _ rfl rfl rfl
        · rw [hres, hres]
          exact (handleInclude_corr hm hi _ _).bind fun _ _ => .quiet _ rfl rfl rfl
      · split
        · split
          · exact .quiet _ rfl rfl rfl
          · split
            · exact .quiet _ rfl rfl rfl
            · split
              · -- a section
                simp only [openSection, hu]
                by_cases hv : s.valid cmd
                · simp only [hv, if_true]
                  refine Corr.from (t := { s with state := some cmd }) ?_ rfl rfl rfl
                  have key : ∀ (r : Res (PState C)) (i : Str → PState C → Res (PState C)),
                      (match r with
                        | (s, some e) => Step.stop (s, some e)
                        | (s, none) => .ofSection (readSection cfg i cmd rest (n + 1) s)).toE =
                      bnd (toE r) fun _ s => (Step.ofSection (readSection cfg i cmd rest (n + 1) s)).toE := by
                    intro r i
                    obtain ⟨t, o⟩ := r
                    cases o <;> rfl
                  refine .cast (key _ _) (key _ _) (Corr.bind ?_ fun _ t => ?_)
                  · obtain ⟨c1, c2, w, c3⟩ := handleHeader_counts cfg cmd (n + 1) (cmd :: args) { s with state := some cmd }
                    refine tryFunc_corr (hr.header cmd (n + 1) (cmd :: args) { s with state := some cmd }) c1
                      (hr.count ..) ?_ ?_ ?_
                    · rw [c3]; simp
                    · rw [c2]; exact Nat.le_refl _
                    · rw [c2, c3]
                      simp
                  · rw [hsec, hsec]
                    exact (readSection_corr hm hi cmd rest (n + 1) t).bind fun _ _ => .quiet _ rfl rfl rfl
                · simp only [hv, if_true]
                  exact .quiet _ rfl rfl rfl
              · rw [hres, hres]
                refine Corr.bind ?_ fun _ _ => .quiet _ rfl rfl rfl
                refine tryFunc_corr (w := warned (disp (n + 1) (cmd :: args) line s.cmds).1 ≠ warned s.cmds) ?_ rfl rfl
                  (Nat.le_refl _) (hr.grow ..) (by simp [handleCommand])
                refine ⟨fun h => ?_, fun h => ?_⟩
                · simp only [handleCommand]
                  rw [(hr.disp (n + 1) (cmd :: args) line s.cmds).1 h]
                · exact (hr.disp (n + 1) (cmd :: args) line s.cmds).2 h
        · split
          · rw [hsec, hsec]
            exact (readSection_corr hm hi _ _ _ _).bind fun _ _ => .quiet _ rfl rfl rfl
          · exact .quiet _ rfl rfl rfl

theorem runBy_corr (hm : cfg.missingIncludeIsFatal = true) (hu : cfg.unknownSectionIsFatal = true)
    (hr : RaisedBy cfg warned disp disp' header') {inc inc' : Str → PState C → Res (PState C)}
    (hi : ∀ f s, Corr warned s (toE (inc f s)) (toE (inc' f s))) (fuel : Nat) :
    ∀ (l : List Str) (n : Nat) (s : PState C),
      Corr warned s (toE (runBy (handleHeader cfg) cfg disp inc fuel l n s)) (toE (runBy header' cfg disp' inc' fuel l n s)) := by
  induction fuel with
  | zero => intro l n s; exact .quiet _ rfl rfl rfl
  | succ k ih =>
    intro l n s
    cases l with
    | nil => exact .quiet _ rfl rfl rfl
    | cons line rest =>
      simp only [runBy]
      split
      · exact .quiet _ rfl rfl rfl
      · have key : ∀ (st : Step C) (f : Nat → List Str → PState C → Res (PState C)),
            toE (match st with
              | .stop r => r
              | .next n rest s => f n rest s) =
            bnd st.toE fun o s => match o with
              | none => (s, .ok ())
              | some (n, rest) => toE (f n rest s) := by
          intro st f
          cases st with
          | stop r =>
            obtain ⟨t, o⟩ := r
            cases o <;> rfl
          | next n rest s => rfl
        refine .cast (key _ fun n rest s => runBy (handleHeader cfg) cfg disp inc k rest n s)
          (key _ fun n rest s => runBy header' cfg disp' inc' k rest n s) ?_
        refine (stepBy_corr hm hu hr hi line rest n s).bind fun o t => ?_
        cases o with
        | none => exact .quiet _ rfl rfl rfl
        | some x => exact ih _ _ _

theorem readBy_corr (hm : cfg.missingIncludeIsFatal = true) (hu : cfg.unknownSectionIsFatal = true)
    (hr : RaisedBy cfg warned disp disp' header') (w : World) (d : Nat) :
    ∀ (f : Str) (s : PState C),
      Corr warned s (toE (readBy (handleHeader cfg) cfg w disp d f s)) (toE (readBy header' cfg w disp' d f s)) := by
  induction d with
  | zero => intro f s; exact .quiet _ rfl rfl rfl
  | succ k ih =>
    intro f s
    simp only [readBy]
    cases w.load (resolvePath w s f) with
    | error e => simp only; split <;> exact .quiet _ rfl rfl rfl
    | ok text => exact (runBy_corr hm hu hr ih _ _ _ _).from rfl rfl rfl

end

end Ks
