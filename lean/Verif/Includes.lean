import Verif.Document
/-!
# Reading files with the directory of the including file made explicit

The parser remembers the directories of the files being read in a table indexed by the nesting
depth.  `specRead` passes the directory as an argument instead; `readFile_spec` shows that the
bookkeeping of the parser amounts to the same for every file.
-/
namespace Ks
variable {C : Type}

/-- Read `f`, included from a file in `dir` (`none`: read directly).  Specification of
`parser.py:803-828` without the table of directories. -/
def specRead (cfg : Cfg) (w : World) (disp : Disp C) : Nat → Option Str → Str → PState C → Res (PState C)
  | 0, _, _, s => (s, some .recursion)
  | d + 1, dir, f, s =>
    match w.load (findInclude w dir f) with
    | .error e => if e.isKickstartError then (s, some cannotOpen) else (s, some e)
    | .ok text => stateMachine cfg disp (specRead cfg w disp d (some (dirOf w (findInclude w dir f)))) (splitLines text ++ [[]]) s

/-- Replace the table of directories and the depth. -/
def PState.nest (x : List (Nat × Str)) (k : Nat) (s : PState C) : PState C := { s with currentdir := x, includeDepth := k }

def nestRes (x : List (Nat × Str)) (k : Nat) (r : Res (PState C)) : Res (PState C) := (r.1.nest x k, r.2)

variable {cfg : Cfg} {w : World} {disp : Disp C} {inc : Str → PState C → Res (PState C)}

theorem handleLine_nest (name line : Str) (s : PState C) (x : List (Nat × Str)) (k : Nat) :
    handleLine name line (s.nest x k) = nestRes x k (handleLine name line s) := by
  unfold handleLine
  have : (s.nest x k).sec name = s.sec name := rfl
  rw [this]
  cases s.sec name with
  | none => rfl
  | some o => cases o <;> rfl

theorem finalize_nest (name : Str) (s : PState C) (x : List (Nat × Str)) (k : Nat) :
    finalize name (s.nest x k) = (finalize name s).nest x k := by
  unfold finalize
  have : (s.nest x k).sec name = s.sec name := rfl
  rw [this]
  cases s.sec name with
  | none => rfl
  | some o =>
    cases o with
    | script t k b => simp only; cases (b.finalize t).1 <;> rfl
    | packages k => rfl
    | null a b => rfl

theorem specialComment_nest (line : Str) (s : PState C) (x : List (Nat × Str)) (k : Nat) :
    specialComment line (s.nest x k) = (specialComment line s).nest x k := by
  unfold specialComment
  have : (s.nest x k).state = s.state := rfl
  rw [this]
  split
  · rfl
  · split <;> rfl

theorem tryFunc_nest (r : Res (PState C)) (x : List (Nat × Str)) (k : Nat) : tryFunc cfg (nestRes x k r) = nestRes x k (tryFunc cfg r) := by
  rcases r with ⟨s, _ | e⟩
  · rfl
  · unfold tryFunc nestRes
    simp only
    split <;> rfl

theorem handleHeader_nest (name : Str) (n : Nat) (args : List Str) (s : PState C) (x : List (Nat × Str)) (k : Nat) :
    handleHeader cfg name n args (s.nest x k) = nestRes x k (handleHeader cfg name n args s) := by
  unfold handleHeader
  have : (s.nest x k).sec name = s.sec name := rfl
  rw [this]
  cases s.sec name with
  | none => rfl
  | some o =>
    cases o with
    | script t k b =>
      simp only
      cases b.header t n args.tail with
      | error e => rfl
      | ok b' => simp only; split <;> rfl
    | packages k => rfl
    | null a b => rfl

theorem openSection_nest (n : Nat) (name : Str) (s : PState C) (x : List (Nat × Str)) (k : Nat) :
    openSection cfg n name (s.nest x k) = nestRes x k (openSection cfg n name s) := by
  unfold openSection
  have : (s.nest x k).valid name = s.valid name := rfl
  rw [this]
  split
  · rfl
  · split <;> rfl

theorem handleCommand_nest (n : Nat) (args : List Str) (line : Str) (s : PState C) (x : List (Nat × Str)) (k : Nat) :
    handleCommand disp n args line (s.nest x k) = nestRes x k (handleCommand disp n args line s) := rfl

theorem nest_self (s : PState C) : s.nest s.currentdir s.includeDepth = s := rfl

/-- Forget the directories. -/
def PState.dropDirs (s : PState C) : PState C := { s with currentdir := [] }

/-- A function on the parser that does not look at or change the nesting. -/
def Local (P : PState C → Res (PState C)) : Prop := ∀ s x k, P (s.nest x k) = nestRes x k (P s)

theorem Local.dirs {P : PState C → Res (PState C)} (h : Local P) (s : PState C) : (P s).1.currentdir = s.currentdir := by
  have := h s s.currentdir s.includeDepth
  rw [nest_self] at this
  rw [this]; rfl

theorem Local.depth {P : PState C → Res (PState C)} (h : Local P) (s : PState C) : (P s).1.includeDepth = s.includeDepth := by
  have := h s s.currentdir s.includeDepth
  rw [nest_self] at this
  rw [this]; rfl

theorem Local.drop {P : PState C → Res (PState C)} (h : Local P) (s : PState C) : P s.dropDirs = ((P s).1.dropDirs, (P s).2) := by
  have := h s [] s.includeDepth
  have e : s.nest [] s.includeDepth = s.dropDirs := rfl
  rw [e] at this
  rw [this, nestRes, PState.nest, ← h.depth s]
  rfl

theorem local_handleLine (name line : Str) : Local (C := C) (handleLine name line) := fun s x k => handleLine_nest name line s x k
theorem local_finalize (name : Str) : Local (C := C) (fun s => (finalize name s, none)) := fun s x k => by
  show (finalize name (s.nest x k), none) = _
  rw [finalize_nest]; rfl
theorem local_special (line : Str) : Local (C := C) (fun s => (specialComment line s, none)) := fun s x k => by
  show (specialComment line (s.nest x k), none) = _
  rw [specialComment_nest]; rfl
theorem local_open (n : Nat) (name : Str) : Local (C := C) (openSection cfg n name) := fun s x k => openSection_nest n name s x k
theorem local_header (name : Str) (n : Nat) (args : List Str) : Local (C := C) (fun s => tryFunc cfg (handleHeader cfg name n args s)) :=
  fun s x k => by
    show tryFunc cfg (handleHeader cfg name n args (s.nest x k)) = _
    rw [handleHeader_nest, tryFunc_nest]
theorem local_command (n : Nat) (args : List Str) (line : Str) : Local (C := C) (fun s => tryFunc cfg (handleCommand disp n args line s)) :=
  fun s x k => by
    show tryFunc cfg (handleCommand disp n args line (s.nest x k)) = _
    rw [handleCommand_nest, tryFunc_nest]

/-- The parser is at depth `k` and the file being read at each depth `j ≤ k` is in directory `dir j`. -/
def At (k : Nat) (dir : Nat → Option Str) (s : PState C) : Prop := s.includeDepth = k ∧ ∀ j ≤ k, s.currentdir.lookup j = dir j

theorem Local.at {P : PState C → Res (PState C)} (h : Local P) {s : PState C} {k : Nat} {dir : Nat → Option Str} (ha : At k dir s) :
    At k dir (P s).1 := ⟨(h.depth s).trans ha.1, by rw [h.dirs s]; exact ha.2⟩

/-- No exception, or one that the include of the file swallows. -/
def Soft (cfg : Cfg) (o : Option Exc) : Prop := ∀ e, o = some e → e.isKickstartError = true ∧ cfg.missingIncludeIsFatal = false

def errOf {α : Type} : Except Exc α → Option Exc
  | .ok _ => none
  | .error e => some e

/-- `inc` includes files as `incS` does, for includes at depth `k` with directories `dir`. -/
def IncSim (cfg : Cfg) (inc incS : Str → PState C → Res (PState C)) (k : Nat) (dir : Nat → Option Str) : Prop :=
  ∀ f s, At k dir s →
    handleInclude cfg incS f s.dropDirs = ((handleInclude cfg inc f s).1.dropDirs, (handleInclude cfg inc f s).2) ∧
    (Soft cfg (handleInclude cfg inc f s).2 → At k dir (handleInclude cfg inc f s).1)

def SecStep.dropDirs : SecStep C → SecStep C
  | .stop (s, r) => .stop (s.dropDirs, r)
  | .go s => .go s.dropDirs

theorem secStep_sim {incS : Str → PState C → Res (PState C)} {k : Nat} {dir : Nat → Option Str} (hi : IncSim cfg inc incS k dir)
    (name line : Str) (rest : List Str) (n : Nat) {s : PState C} (ha : At k dir s) :
    secStep cfg incS name line rest n s.dropDirs = (secStep cfg inc name line rest n s).dropDirs ∧
    (∀ s', secStep cfg inc name line rest n s = .go s' → At k dir s') ∧
    (∀ s' r, secStep cfg inc name line rest n s = .stop (s', r) → Soft cfg (errOf r) → At k dir s') := by
  have hres : ∀ (r r' : Res (PState C)), r' = (r.1.dropDirs, r.2) → (Soft cfg r.2 → At k dir r.1) →
      SecStep.ofRes r' = (SecStep.ofRes r).dropDirs ∧ (∀ s', SecStep.ofRes r = .go s' → At k dir s') ∧
      (∀ s' x, SecStep.ofRes r = .stop (s', x) → Soft cfg (errOf x) → At k dir s') := by
    rintro ⟨s, _ | e⟩ r' rfl h
    · exact ⟨rfl, fun s' e => by simp only [SecStep.ofRes, SecStep.go.injEq] at e; rw [← e]; exact h (fun e he => by simp at he),
        fun s' x e => by simp [SecStep.ofRes] at e⟩
    · refine ⟨rfl, fun s' e => by simp [SecStep.ofRes] at e, fun s' x e hs => ?_⟩
      simp only [SecStep.ofRes, SecStep.stop.injEq, Prod.mk.injEq] at e
      obtain ⟨rfl, rfl⟩ := e
      exact h hs
  have hgo : ∀ s1 : PState C, At k dir s1 →
      SecStep.go s1.dropDirs = (SecStep.go s1).dropDirs ∧ (∀ s', SecStep.go s1 = .go s' → At k dir s') ∧
      (∀ s' x, SecStep.go s1 = .stop (s', x) → Soft cfg (errOf x) → At k dir s') :=
    fun s1 h => ⟨rfl, fun s' e => by simp only [SecStep.go.injEq] at e; rw [← e]; exact h, fun s' x e => by simp at e⟩
  have herr : ∀ (s1 : PState C) (x : Exc), At k dir s1 →
      SecStep.stop (s1.dropDirs, .error x) = (SecStep.stop (s1, .error x)).dropDirs ∧
      (∀ s', SecStep.stop (s1, .error x) = .go s' → At k dir s') ∧
      (∀ s' y, SecStep.stop (s1, .error x) = .stop (s', y) → Soft cfg (errOf y) → At k dir s') :=
    fun s1 x h => ⟨rfl, fun s' e => by simp at e, fun s' y e _ => by
      simp only [SecStep.stop.injEq, Prod.mk.injEq] at e; rw [← e.1]; exact h⟩
  have hfin : ∀ (s1 : PState C) (x : Nat × List Str), At k dir s1 →
      SecStep.stop (finalize name s1.dropDirs, .ok x) = (SecStep.stop (finalize name s1, .ok x)).dropDirs ∧
      (∀ s', SecStep.stop (finalize name s1, .ok x) = .go s' → At k dir s') ∧
      (∀ s' y, SecStep.stop (finalize name s1, .ok x) = .stop (s', y) → Soft cfg (errOf y) → At k dir s') := by
    intro s1 x h
    have hl := (local_finalize (C := C) name)
    have h1 := congrArg Prod.fst (hl.drop s1)
    simp only at h1
    refine ⟨by rw [h1]; rfl, fun s' e => by simp at e, fun s' y e _ => ?_⟩
    simp only [SecStep.stop.injEq, Prod.mk.injEq] at e
    rw [← e.1]
    exact hl.at h
  unfold secStep
  have hdep : s.dropDirs.includeDepth = s.includeDepth := rfl
  simp only [hdep]
  by_cases h1 : line = [] ∧ s.includeDepth = 0 ∧ cfg.version ≥ Version.F8
  · simp only [if_pos h1]; exact herr _ _ ha
  · simp only [if_neg h1]
    have hs1 : (if line = [] ∧ s.includeDepth = 0 then finalize name s.dropDirs else s.dropDirs) =
        (if line = [] ∧ s.includeDepth = 0 then finalize name s else s).dropDirs ∧
        At k dir (if line = [] ∧ s.includeDepth = 0 then finalize name s else s) := by
      have hl := (local_finalize (C := C) name)
      split
      · exact ⟨congrArg Prod.fst (hl.drop s), hl.at ha⟩
      · exact ⟨rfl, ha⟩
    rw [hs1.1]
    have ha1 := hs1.2
    generalize (if line = [] ∧ s.includeDepth = 0 then finalize name s else s) = s1 at ha1
    have hsec : ∀ x, s1.dropDirs.sec x = s1.sec x := fun _ => rfl
    have hval : ∀ x, s1.dropDirs.valid x = s1.valid x := fun _ => rfl
    simp only [hsec, hval]
    have hline := hres _ _ ((local_handleLine (C := C) name line).drop s1) (fun _ => (local_handleLine (C := C) name line).at ha1)
    by_cases h2 : isBlankOrComment line ∧ (s1.sec name).map (·.allLines) ≠ some true
    · simp only [if_pos h2]; exact hgo _ ha1
    · simp only [if_neg h2]
      by_cases h3 : startsWith (lstrip line) c!"%" = true
      · simp only [if_pos h3]
        by_cases h4 : ¬ s1.valid ((splitWs line).headD []) ∧ (splitWs line).headD [] ≠ c!"%end" ∧ (splitWs line).headD [] ≠ c!"%include"
        · simp only [if_pos h4]; exact hline
        · simp only [if_neg h4]
          cases shlexSplit line false with
          | error e => exact herr _ _ ha1
          | ok a =>
            cases a with
            | nil => exact hgo _ ha1
            | cons cmd args =>
              simp only
              by_cases h5 : cmd = c!"%end"
              · simp only [if_pos h5]; exact hfin _ _ ha1
              · simp only [if_neg h5]
                by_cases h6 : cmd = c!"%include"
                · simp only [if_pos h6]
                  by_cases h7 : args.headD [] = []
                  · simp only [if_pos h7]; exact herr _ _ ha1
                  · simp only [if_neg h7]; exact hres _ _ (hi _ _ ha1).1 (hi _ _ ha1).2
                · simp only [if_neg h6]
                  by_cases h7 : cmd = c!"%ksappend"
                  · simp only [if_pos h7]; exact hgo _ ha1
                  · simp only [if_neg h7]
                    by_cases h8 : s1.valid cmd = true
                    · simp only [if_pos h8]
                      by_cases h9 : cfg.version ≥ Version.F8
                      · simp only [if_pos h9]; exact herr _ _ ha1
                      · simp only [if_neg h9]; exact hfin _ _ ha1
                    · simp only [if_neg h8]; exact hgo _ ha1
      · simp only [if_neg h3]; exact hline

theorem readSection_sim {incS : Str → PState C → Res (PState C)} {k : Nat} {dir : Nat → Option Str} (hi : IncSim cfg inc incS k dir)
    (name : Str) (lines : List Str) (n : Nat) {s : PState C} (ha : At k dir s) :
    readSection cfg incS name lines n s.dropDirs =
      ((readSection cfg inc name lines n s).1.dropDirs, (readSection cfg inc name lines n s).2) ∧
    (Soft cfg (errOf (readSection cfg inc name lines n s).2) → At k dir (readSection cfg inc name lines n s).1) := by
  induction lines generalizing n s with
  | nil => exact ⟨rfl, fun _ => ha⟩
  | cons l ls ih =>
    rw [readSection_cons, readSection_cons]
    obtain ⟨h1, h2, h3⟩ := secStep_sim hi name l ls n ha
    rw [h1]
    cases hs : secStep cfg inc name l ls n s with
    | stop r =>
      obtain ⟨s1, x⟩ := r
      exact ⟨rfl, fun hr => h3 _ _ hs hr⟩
    | go s1 => exact ih (n + 1) (h2 s1 hs)

def Step.dropDirs : Step C → Step C
  | .stop (s, r) => .stop (s.dropDirs, r)
  | .next n l s => .next n l s.dropDirs

theorem step_sim {incS : Str → PState C → Res (PState C)} {k : Nat} {dir : Nat → Option Str} (hi : IncSim cfg inc incS k dir)
    (line : Str) (rest : List Str) (n : Nat) {s : PState C} (ha : At k dir s) :
    step cfg disp incS line rest n s.dropDirs = (step cfg disp inc line rest n s).dropDirs ∧
    (∀ m l s', step cfg disp inc line rest n s = .next m l s' → At k dir s') ∧
    (∀ s' x, step cfg disp inc line rest n s = .stop (s', x) → Soft cfg x → At k dir s') := by
  have hres : ∀ (r r' : Res (PState C)) (m : Nat), r' = (r.1.dropDirs, r.2) → (Soft cfg r.2 → At k dir r.1) →
      Step.ofRes m rest r' = (Step.ofRes m rest r).dropDirs ∧ (∀ m' l s', Step.ofRes m rest r = .next m' l s' → At k dir s') ∧
      (∀ s' x, Step.ofRes m rest r = .stop (s', x) → Soft cfg x → At k dir s') := by
    rintro ⟨s, _ | e⟩ r' m rfl h
    · exact ⟨rfl, fun m' l s' e => by simp only [Step.ofRes, Step.next.injEq] at e; rw [← e.2.2]; exact h (fun e he => by simp at he),
        fun s' x e => by simp [Step.ofRes] at e⟩
    · refine ⟨rfl, fun m' l s' e => by simp [Step.ofRes] at e, fun s' x e hs => ?_⟩
      simp only [Step.ofRes, Step.stop.injEq, Prod.mk.injEq] at e
      obtain ⟨rfl, rfl⟩ := e
      exact h hs
  have hsec : ∀ (r r' : PState C × Except Exc (Nat × List Str)), r' = (r.1.dropDirs, r.2) → (Soft cfg (errOf r.2) → At k dir r.1) →
      Step.ofSection r' = (Step.ofSection r).dropDirs ∧ (∀ m' l s', Step.ofSection r = .next m' l s' → At k dir s') ∧
      (∀ s' x, Step.ofSection r = .stop (s', x) → Soft cfg x → At k dir s') := by
    rintro ⟨s, e | ⟨m, l⟩⟩ r' rfl h
    · refine ⟨rfl, fun m' l s' e => by simp [Step.ofSection] at e, fun s' x e hs => ?_⟩
      simp only [Step.ofSection, Step.stop.injEq, Prod.mk.injEq] at e
      obtain ⟨rfl, rfl⟩ := e
      exact h hs
    · exact ⟨rfl, fun m' l' s' e => by
        simp only [Step.ofSection, Step.next.injEq] at e; rw [← e.2.2]; exact h (fun e he => by simp [errOf] at he),
        fun s' x e => by simp [Step.ofSection] at e⟩
  have hstop : ∀ (s1 : PState C) (x : Option Exc), At k dir s1 →
      Step.stop (s1.dropDirs, x) = (Step.stop (s1, x)).dropDirs ∧ (∀ m l s', Step.stop (s1, x) = .next m l s' → At k dir s') ∧
      (∀ s' y, Step.stop (s1, x) = .stop (s', y) → Soft cfg y → At k dir s') :=
    fun s1 x h => ⟨rfl, fun m l s' e => by simp at e, fun s' y e _ => by
      simp only [Step.stop.injEq, Prod.mk.injEq] at e; rw [← e.1]; exact h⟩
  have hnext : ∀ (s1 : PState C) (m : Nat) (l : List Str), At k dir s1 →
      Step.next m l s1.dropDirs = (Step.next m l s1).dropDirs ∧ (∀ m' l' s', Step.next m l s1 = .next m' l' s' → At k dir s') ∧
      (∀ s' y, Step.next m l s1 = .stop (s', y) → Soft cfg y → At k dir s') :=
    fun s1 m l h => ⟨rfl, fun m l s' e => by simp only [Step.next.injEq] at e; rw [← e.2.2]; exact h, fun s' y e => by simp at e⟩
  unfold step
  simp only
  by_cases h1 : isBlankOrComment line = true
  · simp only [if_pos h1]
    have hl := local_special (C := C) line
    have e := congrArg Prod.fst (hl.drop s)
    simp only at e
    rw [e]
    exact hnext _ _ _ (hl.at ha)
  · simp only [if_neg h1]
    cases shlexSplit line true with
    | error e => exact hstop _ _ ha
    | ok a =>
      cases a with
      | nil => exact hstop _ _ ha
      | cons cmd args =>
        simp only
        by_cases h2 : cmd = c!"%include"
        · simp only [if_pos h2]
          by_cases h3 : args.headD [] = []
          · simp only [if_pos h3]; exact hstop _ _ ha
          · simp only [if_neg h3]; exact hres _ _ _ (hi _ _ ha).1 (hi _ _ ha).2
        · simp only [if_neg h2]
          have hst : s.dropDirs.state = s.state := rfl
          have hdep : s.dropDirs.includeDepth = s.includeDepth := rfl
          simp only [hst, hdep]
          cases s.state with
          | none =>
            simp only
            by_cases h3 : cmd = c!"%ksappend"
            · simp only [if_pos h3]; exact hnext _ _ _ ha
            · simp only [if_neg h3]
              cases cmd.head? with
              | none => exact hstop _ _ ha
              | some c =>
                simp only
                by_cases h4 : c = '%'
                · simp only [if_pos h4]
                  have ho := local_open (cfg := cfg) (C := C) (n + 1) cmd
                  rw [ho.drop s]
                  have hao := ho.at ha
                  cases hos : openSection cfg (n + 1) cmd s with
                  | mk s1 e1 =>
                    rw [hos] at hao
                    cases e1 with
                    | some e => exact hstop _ _ hao
                    | none =>
                      simp only
                      have hh := local_header (cfg := cfg) (C := C) cmd (n + 1) (cmd :: args)
                      have hd : tryFunc cfg (handleHeader cfg cmd (n + 1) (cmd :: args) s1.dropDirs) = _ := hh.drop s1
                      have hah : At k dir (tryFunc cfg (handleHeader cfg cmd (n + 1) (cmd :: args) s1)).1 := hh.at (s := s1) hao
                      rw [hd]
                      cases hhs : tryFunc cfg (handleHeader cfg cmd (n + 1) (cmd :: args) s1) with
                      | mk s2 e2 =>
                        rw [hhs] at hah
                        cases e2 with
                        | some e => exact hstop _ _ hah
                        | none =>
                          obtain ⟨a1, a2⟩ := readSection_sim hi cmd rest (n + 1) hah
                          exact hsec _ _ a1 a2
                · simp only [if_neg h4]
                  have hl := local_command (cfg := cfg) (disp := disp) (n + 1) (cmd :: args) line
                  exact hres _ _ _ (hl.drop s) (fun _ => hl.at ha)
          | some name =>
            simp only
            split
            · obtain ⟨a1, a2⟩ := readSection_sim hi name (line :: rest) (n + 1 - 1) ha
              exact hsec _ _ a1 a2
            · exact hnext _ _ _ ha

/-- The loop is only left early by an exception. -/
theorem step_stop {line : Str} {rest : List Str} {n : Nat} {s : PState C} {r : Res (PState C)}
    (h : step cfg disp inc line rest n s = .stop r) : r.2 ≠ none := by
  have hres : ∀ {m : Nat} {x : Res (PState C)}, Step.ofRes m rest x = .stop r → r.2 ≠ none := by
    rintro m ⟨s, _ | e⟩ h
    · simp [Step.ofRes] at h
    · simp only [Step.ofRes, Step.stop.injEq] at h; rw [← h]; simp
  have hsec : ∀ {x : PState C × Except Exc (Nat × List Str)}, Step.ofSection x = .stop r → r.2 ≠ none := by
    rintro ⟨s, e | ⟨m, l⟩⟩ h
    · simp only [Step.ofSection, Step.stop.injEq] at h; rw [← h]; simp
    · simp [Step.ofSection] at h
  have hst : ∀ {s : PState C} {e : Exc}, Step.stop (s, some e) = .stop r → r.2 ≠ none := by
    intro s e h
    simp only [Step.stop.injEq] at h; rw [← h]; simp
  unfold step at h
  simp only at h
  split at h
  · simp at h
  · split at h
    · exact hst h
    · exact hst h
    · split at h
      · split at h
        · exact hst h
        · exact hres h
      · split at h
        · split at h
          · simp at h
          · split at h
            · exact hst h
            · split at h
              · split at h
                · exact hst h
                · split at h
                  · exact hst h
                  · exact hsec h
              · exact hres h
        · split at h
          · exact hsec h
          · simp at h

theorem runFuel_sim {incS : Str → PState C → Res (PState C)} {k : Nat} {dir : Nat → Option Str} (hi : IncSim cfg inc incS k dir)
    (fuel : Nat) (lines : List Str) (n : Nat) {s : PState C} (ha : At k dir s) :
    runFuel cfg disp incS fuel lines n s.dropDirs =
      ((runFuel cfg disp inc fuel lines n s).1.dropDirs, (runFuel cfg disp inc fuel lines n s).2) ∧
    (Soft cfg (runFuel cfg disp inc fuel lines n s).2 → At k dir (runFuel cfg disp inc fuel lines n s).1) := by
  induction fuel generalizing lines n s with
  | zero => exact ⟨rfl, fun _ => ha⟩
  | succ fuel ih =>
    cases lines with
    | nil => exact ⟨rfl, fun _ => ha⟩
    | cons l ls =>
      rw [runFuel, runFuel]
      by_cases hl : l = []
      · simp only [if_pos hl]; exact ⟨by trivial, fun _ => ha⟩
      · simp only [if_neg hl]
        obtain ⟨h1, h2, h3⟩ := step_sim (disp := disp) hi l ls n ha
        rw [h1]
        cases hs : step cfg disp inc l ls n s with
        | stop r =>
          exact ⟨rfl, fun hr => h3 _ _ hs hr⟩
        | next m l' s1 => exact ih _ _ (h2 _ _ _ hs)

/-- The table of directories amounts to passing the directory of the including file. -/
theorem handleInclude_sim (d : Nat) (k : Nat) (dir : Nat → Option Str) :
    IncSim cfg (readFile cfg w disp d) (specRead cfg w disp d (dir k)) k dir := by
  induction d generalizing k dir with
  | zero =>
    intro f s ha
    unfold handleInclude
    by_cases hf : cfg.followIncludes = true
    · rw [if_neg (by simp [hf]), if_neg (by simp [hf]), readFile, specRead]
      exact ⟨rfl, fun h => by simp [Exc.isKickstartError, Soft] at h⟩
    · rw [if_pos (by simpa using hf), if_pos (by simpa using hf)]
      exact ⟨rfl, fun _ => ha⟩
  | succ d ih =>
    intro f s ha
    unfold handleInclude
    by_cases hf : cfg.followIncludes = true
    · rw [if_neg (by simp [hf]), if_neg (by simp [hf]), readFile, specRead]
      have hd : s.currentdir.lookup s.includeDepth = dir k := by rw [ha.1]; exact ha.2 k (Nat.le_refl _)
      simp only [resolvePath_include w f hd]
      generalize hg : findInclude w (dir k) f = g
      generalize hs0 : noteDir w g { s with includeDepth := s.includeDepth + 1 } = s0
      have hs0' : ({ s.dropDirs with includeDepth := s.dropDirs.includeDepth + 1 } : PState C) = s0.dropDirs := by rw [← hs0]; rfl
      let dir' : Nat → Option Str := fun j => if j = k + 1 then some (dirOf w g) else dir j
      have h0 : At (k + 1) dir' s0 := by
        rw [← hs0]
        refine ⟨by show s.includeDepth + 1 = _; rw [ha.1], fun j hj => ?_⟩
        have := lookup_assocSet (s.includeDepth + 1) j (dirOf w g) s.currentdir
        rw [ha.1] at this
        show List.lookup j (assocSet (s.includeDepth + 1) (dirOf w g) s.currentdir) = _
        rw [ha.1, this]
        show _ = if j = k + 1 then _ else _
        split
        · rfl
        · exact ha.2 j (by omega)
      rw [hs0']
      have hback : ∀ s1 : PState C, At (k + 1) dir' s1 → At k dir ({ s1 with includeDepth := s1.includeDepth - 1 } : PState C) := by
        intro s1 h1
        refine ⟨by show s1.includeDepth - 1 = k; rw [h1.1]; rfl, fun j hj => ?_⟩
        have := h1.2 j (by omega)
        show s1.currentdir.lookup j = _
        rw [this]
        exact if_neg (by omega)
      cases w.load g with
      | error e =>
        simp only
        by_cases he : e.isKickstartError = true
        · rw [if_pos he, if_pos he]
          simp only [cannotOpen]
          by_cases hm : cfg.missingIncludeIsFatal = true
          · simp only [hm, not_true_eq_false, and_false, if_false]
            exact ⟨by trivial, fun h => by simp [Soft, hm] at h⟩
          · simp only [Exc.isKickstartError, true_and, if_pos hm]
            exact ⟨rfl, fun _ => hback s0 h0⟩
        · rw [if_neg he, if_neg he]
          simp only [he]
          exact ⟨rfl, fun h => absurd (h e rfl).1 he⟩
      | ok text =>
        simp only
        have hih := ih (k + 1) dir'
        have hdk : dir' (k + 1) = some (dirOf w g) := if_pos rfl
        rw [hdk] at hih
        obtain ⟨a1, a2⟩ := runFuel_sim (disp := disp) hih (2 * (splitLines text ++ [[]]).length + 2) (splitLines text ++ [[]]) 0 h0
        unfold stateMachine
        rw [a1]
        cases hr : runFuel cfg disp (readFile cfg w disp d) (2 * (splitLines text ++ [[]]).length + 2) (splitLines text ++ [[]]) 0 s0 with
        | mk s1 e1 =>
          rw [hr] at a2
          cases e1 with
          | none => exact ⟨rfl, fun _ => hback s1 (a2 (fun e he => by simp at he))⟩
          | some e =>
            simp only
            by_cases hm : e.isKickstartError = true ∧ ¬ cfg.missingIncludeIsFatal = true
            · rw [if_pos hm, if_pos hm]
              refine ⟨rfl, fun _ => hback s1 (a2 ?_)⟩
              intro e' he'
              simp only [Option.some.injEq] at he'
              subst he'
              exact ⟨hm.1, by simpa using hm.2⟩
            · rw [if_neg hm, if_neg hm]
              exact ⟨rfl, fun h => absurd ⟨(h e rfl).1, by simp [(h e rfl).2]⟩ hm⟩
    · rw [if_pos (by simpa using hf), if_pos (by simpa using hf)]
      exact ⟨rfl, fun _ => ha⟩

/-- `readKickstart(f)` in terms of `specRead`. -/
theorem readKickstart_spec (d : Nat) (f : Str) (s : PState C) :
    specRead cfg w disp d none f s.reset.dropDirs =
      ((readKickstart cfg w disp d f s).1.dropDirs, (readKickstart cfg w disp d f s).2) := by
  unfold readKickstart
  cases d with
  | zero => rfl
  | succ d =>
    rw [readFile, specRead]
    have hp : resolvePath w s.reset f = f := by unfold resolvePath; split <;> rfl
    have hp' : findInclude w none f = f := by unfold findInclude; split <;> rfl
    simp only [hp, hp']
    cases w.load f with
    | error e => simp only; split <;> rfl
    | ok text =>
      simp only
      let dir : Nat → Option Str := fun _ => some (dirOf w f)
      have h0 : At 0 dir (noteDir w f s.reset) := by
        refine ⟨rfl, fun j hj => ?_⟩
        have : j = 0 := by omega
        subst this
        exact (lookup_assocSet 0 0 (dirOf w f) s.currentdir).trans (if_pos rfl)
      exact (runFuel_sim (disp := disp) (handleInclude_sim d 0 dir) (2 * (splitLines text ++ [[]]).length + 2) (splitLines text ++ [[]]) 0 h0).1

/-- `readKickstartFromString(text)`: includes are looked for next to the file read last by this
parser, if any. -/
theorem readString_spec (d : Nat) (text : Str) (s : PState C) :
    stateMachine cfg disp (specRead cfg w disp d (s.currentdir.lookup 0)) (splitLines text ++ [[]]) s.reset.dropDirs =
      ((readString cfg w disp d text s).1.dropDirs, (readString cfg w disp d text s).2) := by
  let dir : Nat → Option Str := fun _ => s.currentdir.lookup 0
  have h0 : At 0 dir s.reset := ⟨rfl, fun j hj => by have : j = 0 := by omega
                                                     subst this; rfl⟩
  exact (runFuel_sim (disp := disp) (handleInclude_sim d 0 dir) (2 * (splitLines text ++ [[]]).length + 2) (splitLines text ++ [[]]) 0 h0).1

end Ks
