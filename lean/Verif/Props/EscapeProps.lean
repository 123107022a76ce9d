import Verif.Props.ParserProps
import Verif.Props.ArgparseProps
import Verif.Props.PackagesProps
/-!
# C42: which exceptions escape from reading a file

The claim "reading either succeeds or raises a `KickstartError`" is false: three witnesses.  What
holds is stated by `C42_escapes_partial` and `C42_only_kickstart_errors_partial`.
-/
namespace Ks
variable {C : Type}

/-! ## The claim is false -/

/-- C42 fails: a line that is only `""` raises `IndexError`. -/
theorem C42_empty_word_escapes :
    (readString { version := Version.F34 } sampleWorld picky 2 c!"\"\"\n" { cmds := [] }).2 = some .index := by decide +kernel

/-- C42 fails: an unbalanced quote raises `ValueError`. -/
theorem C42_open_quote_escapes :
    (readString { version := Version.F34 } sampleWorld picky 2 c!"ok \"1\n" { cmds := [] }).2 = some (.shlex .noClosingQuotation) := by
  decide +kernel

/-- C42 fails: a line that is only `-` in `%packages` raises `IndexError`, even when errors are not
fatal. -/
theorem C42_lone_dash_escapes :
    (readString { version := Version.F34, errorsAreFatal := false } sampleWorld picky 2 c!"%packages\n-\n%end\n" { cmds := [] }).2 = some .index := by
  decide +kernel

/-! ## What holds -/

theorem typesOk_empty (l : Option Int) : OptParser.empty.TypesOk l := ⟨by simp [OptParser.empty], by simp [OptParser.empty]⟩

theorem scriptParser_types (t : ScriptType) (l : Option Int) : (scriptParser t).TypesOk l := by
  have h : (OptParser.empty.addAll
    [ flagArg [c!"--erroronfail"] (some c!"errorOnFail"),
      { names := [c!"--interpreter"], dest := some c!"interpreter", default := some (.str c!"/bin/sh") },
      { names := [c!"--log", c!"--logfile"], dest := some c!"log" } ]).TypesOk l := by
    apply C10_table
    intro a ha
    simp only [List.mem_cons, List.not_mem_nil, or_false] at ha
    rcases ha with rfl | rfl | rfl <;> exact .inl rfl
  unfold scriptParser
  simp only
  split
  · exact TypesOk_add h (fun s e he => by cases he)
  · exact h

theorem groupParser_types (l : Option Int) : groupParser.TypesOk l := by
  apply C10_table
  intro a ha
  simp only [List.mem_cons, List.not_mem_nil, or_false] at ha
  rcases ha with rfl | rfl <;> exact .inl rfl

theorem tyInt_ok (l : Option Int) (s : Str) (e : Exc) (he : tyInt s = .error e) :
    e = .value ∨ e = .type ∨ ∃ tag, e = .parse tag l := by
  unfold tyInt at he
  split at he
  · cases he
  · injection he with he; exact .inl he.symm

theorem ite_types {c : Prop} [Decidable c] {a b : OptParser} {l : Option Int} (ha : a.TypesOk l) (hb : b.TypesOk l) :
    (if c then a else b).TypesOk l := by
  split
  · exact ha
  · exact hb

theorem packagesParser_types (v : Nat) (l : Option Int) : (packagesParser v).TypesOk l := by
  have str : ∀ {p : OptParser} {a : Arg}, p.TypesOk l → a.type = (fun s => .ok (.str s)) → (p.add a).TypesOk l := by
    intro p a h ha
    exact TypesOk_add h (fun s e he => by rw [ha] at he; cases he)
  have int : ∀ {p : OptParser} {a : Arg}, p.TypesOk l → a.type = tyInt → (p.add a).TypesOk l := by
    intro p a h ha
    exact TypesOk_add h (fun s e he => by rw [ha] at he; exact tyInt_ok l s e he)
  have h0 := str (str (str (str (typesOk_empty l) (a := flagArg [c!"--excludedocs"]) rfl) (a := flagArg [c!"--ignoremissing"]) rfl)
    (a := { names := [c!"--ignoredeps"], dest := some c!"resolveDeps", kind := .storeConst, nargs := .n 0,
            const := .bool false, default := some (.bool true), deprecated := true }) rfl)
    (a := flagArg [c!"--resolvedeps"] (some c!"resolveDeps") true) rfl
  have h1 := str h0 (a := flagArg [c!"--default"] (some c!"defaultPackages")) rfl
  have h2 := str (TypesOk_remove (TypesOk_remove h1 c!"--ignoredeps") c!"--resolvedeps")
    (a := { names := [c!"--instLangs", c!"--inst-langs"] }) rfl
  have h3 := str h2 (a := flagArg [c!"--nobase"]) rfl
  have h4 := str (str h3 (a := flagArg [c!"--nobase"] none true) rfl) (a := flagArg [c!"--multilib"] (some c!"multiLib")) rfl
  have h5 := str h4 (a := flagArg [c!"--nocore"]) rfl
  have h6 := int (int h5 (a := { names := [c!"--timeout"], dest := some c!"timeout", ty := .int }) rfl)
    (a := { names := [c!"--retries"], dest := some c!"retries", ty := .int }) rfl
  have h7 := TypesOk_remove h6 c!"--nobase"
  have h8 := str h7 (a := flagArg [c!"--excludeWeakdeps", c!"--exclude-weakdeps"] (some c!"excludeWeakdeps")) rfl
  exact ite_types h0 (ite_types h1 (ite_types h2 (ite_types h3 (ite_types h4 (ite_types h5 (ite_types h6 (ite_types h7 (ite_types h8
    (str h8 (a := flagArg [c!"--ignorebroken"]) rfl)))))))))

theorem packages_header_err (v n : Nat) (args : List Str) (p : Packages) {e : Exc} (h : (p.header v n args).2 = some e) :
    e.isParseError = true := by
  unfold Packages.header at h
  split at h
  · rename_i e1 h1
    injection h with h; subst h
    obtain ⟨tag, rfl⟩ := C10_parse_args_error _ _ _ (packagesParser_types v _) _ h1
    rfl
  · unfold Packages.setHeader at h
    simp only [apply_ite Prod.snd] at h
    repeat' split at h
    all_goals first | (cases h; done) | (injection h with h; subst h; rfl)

theorem processGroup_err (p : Packages) (l : Str) {e : Exc} (h : (p.processGroup l).2 = some e) : e.isParseError = true := by
  unfold Packages.processGroup at h
  split at h
  · rename_i e1 h1
    injection h with h; subst h
    obtain ⟨tag, rfl⟩ := C10_parse_known_error _ _ _ (groupParser_types _) _ h1
    rfl
  · simp only at h
    repeat' split at h
    all_goals first | (cases h; done) | (injection h with h; subst h; rfl)

/-- A line of `%packages` fails with a `KickstartParseError` or, if nothing is left of it but perhaps
a `-`, with `IndexError`. -/
theorem packages_line_err (p : Packages) (l : Str) {e : Exc} (h : (p.handleLine l).2 = some e) :
    e.isParseError = true ∨ (e = .index ∧ strip (partition '#' l).1 ∈ [[], c!"-"]) := by
  unfold Packages.handleLine Packages.add at h
  have hs : strip (rstrip (partition '#' l).1) = strip (partition '#' l).1 := strip_rstrip _
  rw [Packages.addLoop] at h
  generalize rstrip (partition '#' l).1 = x at h hs
  cases hl : p.addLine {} x with
  | mk q o =>
    rw [hl] at h
    cases o with
    | none => simp [Packages.addLoop] at h
    | some e1 =>
      have : e1 = e := by simpa using h
      subst this
      unfold Packages.addLine at hl
      simp only at hl
      rw [← hs]
      split at hl
      · cases hl
      · split at hl
        · rename_i hx; cases hl; exact .inr ⟨rfl, by rw [hx]; simp⟩
        · split at hl
          · cases hl
          · rename_i hg; cases hl; exact .inl (processGroup_err _ _ (by rw [hg]))
        · split at hl
          · cases hl
          · split at hl
            · rename_i hx _ ; cases hl; exact .inr ⟨rfl, by rw [hx]; simp⟩
            · cases hl
            · cases hl
        · cases hl

section
variable {cfg : Cfg} {disp : Disp C} {inc : Str → PState C → Res (PState C)} {P : Exc → Prop} {Q : C → Prop}

/-- What the lines of all files involved may raise, given that the commands satisfy `Q`. -/
structure LineOk (P : Exc → Prop) (Q : C → Prop) (disp : Disp C) (l : Str) : Prop where
  split : isBlankOrComment l = false → ∀ x, shlexSplit l true = .error x → P (.shlex x)
  word : isBlankOrComment l = false → ∀ ws, shlexSplit l true = .ok ws → ws.headD [] = [] → P .index
  inner : startsWith (lstrip l) c!"%" = true → ∀ x, shlexSplit l false = .error x → P (.shlex x)
  pkg : isBlankOrComment l = false → ∀ (p : Packages) e, (p.handleLine l).2 = some e → P e
  cmd : isBlankOrComment l = false → ∀ n ws c e, Q c → shlexSplit l true = .ok ws → (disp n ws l c).2 = some e → P e

/-- The parser is not in a section that does not exist, and the commands satisfy `Q`. -/
structure Inv (Q : C → Prop) (s : PState C) : Prop where
  section_ : ∀ n, s.state = some n → n ∈ s.tags
  cmds : Q s.cmds

/-- Outcome of a step from `s`. -/
structure Fine (Q : C → Prop) (s s' : PState C) : Prop where
  inv : Inv Q s'
  tags : ∀ x ∈ s.tags, x ∈ s'.tags

theorem Fine.refl {s : PState C} (h : Inv Q s) : Fine Q s s := ⟨h, fun _ h => h⟩
theorem Fine.trans {a b c : PState C} (h : Fine Q a b) (h' : Fine Q b c) : Fine Q a c := ⟨h'.inv, fun x hx => h'.tags x (h.tags x hx)⟩

theorem fine_of {s s' : PState C} (hi : Inv Q s) (ht : s'.tags = s.tags) (hs : s'.state = s.state ∨ s'.state = none)
    (hc : s'.cmds = s.cmds) : Fine Q s s' := by
  refine ⟨⟨fun n hn => ?_, by rw [hc]; exact hi.cmds⟩, fun x hx => by rw [ht]; exact hx⟩
  rw [ht]
  rcases hs with hs | hs
  · exact hi.section_ n (by rw [← hs]; exact hn)
  · rw [hs] at hn; cases hn

theorem finalize_cmds (name : Str) (s : PState C) : (finalize name s).cmds = s.cmds := by
  unfold finalize
  simp only
  repeat' split
  all_goals rfl

theorem handleLine_cmds (name line : Str) (s : PState C) : (handleLine name line s).1.cmds = s.cmds := by
  unfold handleLine
  repeat' split
  all_goals rfl

theorem fine_finalize {s : PState C} (hi : Inv Q s) (name : Str) : Fine Q s (finalize name s) :=
  fine_of hi (finalize_frame name s).1.tags (.inr (finalize_frame name s).2) (finalize_cmds name s)

theorem fine_handleLine {s : PState C} (hi : Inv Q s) (name line : Str) : Fine Q s (handleLine name line s).1 :=
  fine_of hi (handleLine_frame name line s).1.tags (.inl (handleLine_frame name line s).2) (handleLine_cmds name line s)

/-- Reading an included file behaves. -/
def IncFine (P : Exc → Prop) (Q : C → Prop) (inc : Str → PState C → Res (PState C)) : Prop :=
  ∀ f s, Inv Q s → Fine Q s (inc f s).1 ∧ ∀ e, (inc f s).2 = some e → P e

theorem handleInclude_fine (hinc : IncFine P Q inc) (f : Str) {s : PState C} (hi : Inv Q s) :
    Fine Q s (handleInclude cfg inc f s).1 ∧ ∀ e, (handleInclude cfg inc f s).2 = some e → P e := by
  unfold handleInclude
  split
  · exact ⟨.refl hi, fun e h => by cases h⟩
  · have h0 : Inv Q ({ s with includeDepth := s.includeDepth + 1 } : PState C) := ⟨hi.section_, hi.cmds⟩
    obtain ⟨h1, h2⟩ := hinc f _ h0
    cases hr : inc f { s with includeDepth := s.includeDepth + 1 } with
    | mk s1 o =>
      rw [hr] at h1 h2
      have h3 : Fine Q s s1 := ⟨h1.inv, h1.tags⟩
      cases o with
      | none => exact ⟨⟨⟨h3.inv.section_, h3.inv.cmds⟩, h3.tags⟩, fun e h => by cases h⟩
      | some e =>
        simp only
        split
        · exact ⟨⟨⟨h3.inv.section_, h3.inv.cmds⟩, h3.tags⟩, fun e h => by cases h⟩
        · exact ⟨h3, h2⟩

theorem handleLine_err {name line : Str} {s : PState C} (hn : name ∈ s.tags)
    (hp : (s.sec name).map (·.allLines) = some true ∨ isBlankOrComment line = false) (hl : LineOk P Q disp line) {e : Exc}
    (h : (handleLine name line s).2 = some e) : P e := by
  unfold handleLine at h
  split at h
  · rename_i h0
    have := valid_iff.2 hn
    unfold PState.valid at this
    rw [h0] at this
    cases this
  · cases h
  · rename_i h0
    rw [h0] at hp
    rcases hp with hp | hp
    · cases hp
    · exact hl.pkg hp _ _ h
  · cases h

theorem readSection_fine (hks : ∀ e : Exc, e.isKickstartError = true → P e) (hinc : IncFine P Q inc) {name : Str} (lines : List Str)
    (hL : ∀ l ∈ lines, LineOk P Q disp l) (n : Nat) {s : PState C} (hi : Inv Q s) (hn : name ∈ s.tags) :
    Fine Q s (readSection cfg inc name lines n s).1 ∧
      (∀ e, (readSection cfg inc name lines n s).2 = .error e → P e) ∧
      ∀ m rest, (readSection cfg inc name lines n s).2 = .ok (m, rest) → ∀ l ∈ rest, l ∈ lines := by
  induction lines generalizing n s with
  | nil => exact ⟨.refl hi, fun e h => by simp [readSection] at h, fun m rest h => by simp [readSection] at h; simp [h]⟩
  | cons line rest ih =>
    have hl := hL line (by simp)
    have hstop : ∀ s' : PState C, ∀ r, Fine Q s s' → (∀ e, r = .error e → P e) → (∀ m rest', r = .ok (m, rest') → ∀ l ∈ rest', l ∈ line :: rest) →
        Fine Q s ((s', r) : PState C × Except Exc (Nat × List Str)).1 ∧ (∀ e, ((s', r) : PState C × Except Exc (Nat × List Str)).2 = .error e → P e) ∧
        ∀ m rest', ((s', r) : PState C × Except Exc (Nat × List Str)).2 = .ok (m, rest') → ∀ l ∈ rest', l ∈ line :: rest :=
      fun s' r h1 h2 h3 => ⟨h1, h2, h3⟩
    have herr : ∀ {s' : PState C} {e : Exc}, Fine Q s s' → P e →
        Fine Q s ((s', .error e) : PState C × Except Exc (Nat × List Str)).1 ∧ (∀ e', ((s', .error e) : PState C × Except Exc (Nat × List Str)).2 = .error e' → P e') ∧
        ∀ m rest', ((s', .error e) : PState C × Except Exc (Nat × List Str)).2 = .ok (m, rest') → ∀ l ∈ rest', l ∈ line :: rest :=
      fun h1 h2 => hstop _ _ h1 (fun e' h => by injection h with h; subst h; exact h2) (fun m r h => by cases h)
    have hgo : ∀ {s' : PState C}, Fine Q s s' →
        Fine Q s (readSection cfg inc name rest (n + 1) s').1 ∧
        (∀ e, (readSection cfg inc name rest (n + 1) s').2 = .error e → P e) ∧
        ∀ m rest', (readSection cfg inc name rest (n + 1) s').2 = .ok (m, rest') → ∀ l ∈ rest', l ∈ line :: rest := by
      intro s' h
      obtain ⟨a, b, c⟩ := ih (fun l h => hL l (by simp [h])) (n + 1) h.inv (h.tags _ hn)
      exact ⟨h.trans a, b, fun m r hr l hl => by simp [c m r hr l hl]⟩
    have hres : ∀ {s' : PState C} {x : Res (PState C)}, Fine Q s x.1 → (∀ e, x.2 = some e → P e) →
        Fine Q s (match SecStep.ofRes x with | .stop r => r | .go s => readSection cfg inc name rest (n + 1) s).1 ∧
        (∀ e, (match SecStep.ofRes x with | .stop r => r | .go s => readSection cfg inc name rest (n + 1) s).2 = .error e → P e) ∧
        ∀ m rest', (match SecStep.ofRes x with | .stop r => r | .go s => readSection cfg inc name rest (n + 1) s).2 = .ok (m, rest') →
          ∀ l ∈ rest', l ∈ line :: rest := by
      rintro s' ⟨s1, _ | e⟩ h1 h2
      · exact hgo h1
      · exact herr h1 (h2 e rfl)
    rw [readSection_cons, secStep]
    by_cases h1 : line = [] ∧ s.includeDepth = 0 ∧ cfg.version ≥ Version.F8
    · simp only [if_pos h1]
      exact herr (.refl hi) (hks _ rfl)
    · simp only [if_neg h1]
      have hf1 : Fine Q s (if line = [] ∧ s.includeDepth = 0 then finalize name s else s) := by
        split
        · exact fine_finalize hi name
        · exact .refl hi
      generalize (if line = [] ∧ s.includeDepth = 0 then finalize name s else s) = s1 at hf1
      have hn1 := hf1.tags _ hn
      by_cases h2 : isBlankOrComment line ∧ (s1.sec name).map (·.allLines) ≠ some true
      · simp only [if_pos h2]; exact hgo hf1
      · simp only [if_neg h2]
        have hp : (s1.sec name).map (·.allLines) = some true ∨ isBlankOrComment line = false := by
          by_cases hb : isBlankOrComment line = true
          · left
            by_cases ha : (s1.sec name).map (·.allLines) = some true
            · exact ha
            · exact absurd ⟨hb, ha⟩ h2
          · right; simpa using hb
        have hline : Fine Q s (handleLine name line s1).1 ∧ ∀ e, (handleLine name line s1).2 = some e → P e :=
          ⟨hf1.trans (fine_handleLine hf1.inv name line), fun e h => handleLine_err hn1 hp hl h⟩
        by_cases h3 : startsWith (lstrip line) c!"%" = true
        · simp only [if_pos h3]
          by_cases h4 : ¬ s1.valid ((splitWs line).headD []) ∧ (splitWs line).headD [] ≠ c!"%end" ∧ (splitWs line).headD [] ≠ c!"%include"
          · simp only [if_pos h4]; exact hres (s' := s1) hline.1 hline.2
          · simp only [if_neg h4]
            cases hsp : shlexSplit line false with
            | error x => exact herr hf1 (hl.inner h3 x hsp)
            | ok ws =>
              cases ws with
              | nil => exact hgo hf1
              | cons cmd args =>
                simp only
                by_cases h5 : cmd = c!"%end"
                · simp only [if_pos h5]
                  exact hstop _ _ (hf1.trans (fine_finalize hf1.inv name)) (fun e h => by cases h)
                    (fun m r h l hl => by injection h with h; injection h with _ h; subst h; simp [hl])
                · simp only [if_neg h5]
                  by_cases h6 : cmd = c!"%include"
                  · simp only [if_pos h6]
                    by_cases h7 : args.headD [] = []
                    · simp only [if_pos h7]; exact herr hf1 (hks _ rfl)
                    · simp only [if_neg h7]
                      have hI := handleInclude_fine (cfg := cfg) hinc (args.headD []) hf1.inv
                      exact hres (s' := s1) (hf1.trans hI.1) hI.2
                  · simp only [if_neg h6]
                    by_cases h7 : cmd = c!"%ksappend"
                    · simp only [if_pos h7]; exact hgo hf1
                    · simp only [if_neg h7]
                      by_cases h8 : s1.valid cmd = true
                      · simp only [if_pos h8]
                        by_cases h9 : cfg.version ≥ Version.F8
                        · simp only [if_pos h9]; exact herr hf1 (hks _ rfl)
                        · simp only [if_neg h9]
                          exact hstop _ _ (hf1.trans (fine_finalize hf1.inv name)) (fun e h => by cases h)
                            (fun m r h l hl => by injection h with h; injection h with _ h; subst h; simpa using hl)
                      · simp only [if_neg h8]; exact hgo hf1
        · simp only [if_neg h3]; exact hres (s' := s1) hline.1 hline.2

theorem tryFunc_fine {s : PState C} {x : Res (PState C)} (h1 : Fine Q s x.1) (h2 : ∀ e, x.2 = some e → P e) :
    Fine Q s (tryFunc cfg x).1 ∧ ∀ e, (tryFunc cfg x).2 = some e → P e := by
  obtain ⟨s1, _ | e⟩ := x
  · exact ⟨h1, fun e h => by cases h⟩
  · simp only [tryFunc]
    split
    · exact ⟨⟨⟨h1.inv.section_, h1.inv.cmds⟩, h1.tags⟩, fun e' h => h2 e' h⟩
    · exact ⟨⟨⟨h1.inv.section_, h1.inv.cmds⟩, h1.tags⟩, fun e' h => by cases h⟩

theorem handleHeader_fine (hks : ∀ e : Exc, e.isKickstartError = true → P e) {name : Str} {n : Nat} {args : List Str} {s : PState C} (hi : Inv Q s) (hn : name ∈ s.tags) :
    Fine Q s (handleHeader cfg name n args s).1 ∧ ∀ e, (handleHeader cfg name n args s).2 = some e → P e := by
  unfold handleHeader
  cases hsec : s.sec name with
  | none =>
    have := valid_iff.2 hn
    unfold PState.valid at this
    rw [hsec] at this
    cases this
  | some o =>
    cases o with
    | script t k b =>
      simp only
      cases hb : b.header t n args.tail with
      | error e =>
        refine ⟨fine_of hi (tags_setSec hn) (.inl rfl) rfl, fun e' h => ?_⟩
        injection h with h; subst h
        unfold ScriptBuf.header at hb
        split at hb
        · rename_i e1 h1
          injection hb with hb; subst hb
          obtain ⟨tag, rfl⟩ := C10_parse_args_error _ _ _ (scriptParser_types t _) _ h1
          exact hks _ rfl
        · cases hb
      | ok b' =>
        simp only
        split
        · exact ⟨fine_of hi (tags_setSec hn) (.inl rfl) rfl, fun e' h => by cases h⟩
        · exact ⟨fine_of hi (tags_setSec hn) (.inl rfl) rfl, fun e' h => by cases h⟩
    | packages k =>
      refine ⟨fine_of hi (tags_setSec hn) (.inl rfl) rfl, fun e h => ?_⟩
      have := packages_header_err _ _ _ _ h
      refine hks _ ?_
      cases e <;> first | rfl | cases this
    | null a b => exact ⟨fine_of hi (tags_setSec hn) (.inl rfl) rfl, fun e' h => by cases h⟩

/-- Errors of the loop. -/
theorem run_fine (hks : ∀ e : Exc, e.isKickstartError = true → P e) (hdisp : ∀ n ws l c, Q c → Q (disp n ws l c).1)
    (hinc : IncFine P Q inc) (fuel : Nat) (lines : List Str)
    (hL : ∀ l ∈ lines, LineOk P Q disp l) (n : Nat) {s : PState C} (hi : Inv Q s) :
    Fine Q s (runFuel cfg disp inc fuel lines n s).1 ∧ ∀ e, (runFuel cfg disp inc fuel lines n s).2 = some e → P e := by
  induction fuel generalizing lines n s with
  | zero => exact ⟨.refl hi, fun e h => by cases h⟩
  | succ fuel ih =>
    cases lines with
    | nil => exact ⟨.refl hi, fun e h => by cases h⟩
    | cons line rest =>
      rw [runFuel]
      by_cases hnil : line = []
      · rw [if_pos hnil]; exact ⟨.refl hi, fun e h => by cases h⟩
      · rw [if_neg hnil]
        have hl := hL line (by simp)
        have hgo : ∀ {s' : PState C} {m : Nat} {ls : List Str}, Fine Q s s' → (∀ l ∈ ls, l ∈ line :: rest) →
            Fine Q s (runFuel cfg disp inc fuel ls m s').1 ∧ ∀ e, (runFuel cfg disp inc fuel ls m s').2 = some e → P e := by
          intro s' m ls h hs
          obtain ⟨a, b⟩ := ih ls (fun l hl => hL l (hs l hl)) m h.inv
          exact ⟨h.trans a, b⟩
        have herr : ∀ {s' : PState C} {e : Exc}, Fine Q s s' → P e →
            Fine Q s ((s', some e) : Res (PState C)).1 ∧ ∀ e', ((s', some e) : Res (PState C)).2 = some e' → P e' :=
          fun h1 h2 => ⟨h1, fun e' h => by injection h with h; subst h; exact h2⟩
        have hres : ∀ {m : Nat} {x : Res (PState C)}, Fine Q s x.1 → (∀ e, x.2 = some e → P e) →
            Fine Q s (match Step.ofRes m rest x with | .stop r => r | .next m r s => runFuel cfg disp inc fuel r m s).1 ∧
            ∀ e, (match Step.ofRes m rest x with | .stop r => r | .next m r s => runFuel cfg disp inc fuel r m s).2 = some e → P e := by
          rintro m ⟨s1, _ | e⟩ h1 h2
          · exact hgo h1 (fun l hl => by simp [hl])
          · exact herr h1 (h2 e rfl)
        have hsec : ∀ {name : Str} {ls : List Str} {m : Nat} {s' : PState C}, Fine Q s s' → name ∈ s'.tags → (∀ l ∈ ls, l ∈ line :: rest) →
            Fine Q s (match Step.ofSection (readSection cfg inc name ls m s') with | .stop r => r | .next m r s => runFuel cfg disp inc fuel r m s).1 ∧
            ∀ e, (match Step.ofSection (readSection cfg inc name ls m s') with | .stop r => r | .next m r s => runFuel cfg disp inc fuel r m s).2 = some e → P e := by
          intro name ls m s' h1 hn hs
          obtain ⟨a, b, c⟩ := readSection_fine (cfg := cfg) hks hinc ls (fun l hl => hL l (hs l hl)) m h1.inv hn
          generalize readSection cfg inc name ls m s' = x at a b c
          obtain ⟨s2, e | ⟨m2, r2⟩⟩ := x
          · exact herr (h1.trans a) (b e rfl)
          · exact hgo (h1.trans a) (fun l hl => hs l (c _ _ rfl l hl))
        rw [step]
        by_cases hb : isBlankOrComment line = true
        · simp only [if_pos hb]
          refine hgo (s' := specialComment line s) ?_ (fun l hl => by simp [hl])
          unfold specialComment
          split
          · exact .refl hi
          · split
            · exact ⟨⟨hi.section_, hi.cmds⟩, fun _ h => h⟩
            · exact .refl hi
        · have hb' : isBlankOrComment line = false := by simpa using hb
          simp only [if_neg hb]
          cases hsp : shlexSplit line true with
          | error x => exact herr (.refl hi) (hl.split hb' x hsp)
          | ok ws =>
            cases ws with
            | nil => exact herr (.refl hi) (hl.word hb' [] hsp rfl)
            | cons cmd args =>
              simp only
              by_cases h1 : cmd = c!"%include"
              · simp only [if_pos h1]
                by_cases h2 : args.headD [] = []
                · simp only [if_pos h2]; exact herr (.refl hi) (hks _ rfl)
                · simp only [if_neg h2]
                  have hI := handleInclude_fine (cfg := cfg) hinc (args.headD []) hi
                  exact hres hI.1 hI.2
              · simp only [if_neg h1]
                cases hst : s.state with
                | none =>
                  simp only
                  by_cases h2 : cmd = c!"%ksappend"
                  · simp only [if_pos h2]; exact hgo (.refl hi) (fun l hl => by simp [hl])
                  · simp only [if_neg h2]
                    cases hc : cmd.head? with
                    | none =>
                      refine herr (.refl hi) (hl.word hb' _ hsp ?_)
                      cases cmd with
                      | nil => rfl
                      | cons a b => cases hc
                    | some c =>
                      simp only
                      by_cases h3 : c = '%'
                      · simp only [if_pos h3]
                        cases ho : openSection cfg (n + 1) cmd s with
                        | mk s1 o =>
                          have hop : Fine Q s s1 ∧ (∀ e, o = some e → P e) ∧ (o = none → cmd ∈ s1.tags) := by
                            unfold openSection at ho
                            split at ho
                            · rename_i hv
                              injection ho with ho1 ho2
                              subst ho1; subst ho2
                              exact ⟨⟨⟨fun x hx => by injection hx with hx; subst hx; exact valid_iff.1 hv, hi.cmds⟩, fun _ h => h⟩, fun e h => (by cases h), fun _ => valid_iff.1 hv⟩
                            · rename_i hv
                              have hnt : cmd ∉ s.tags := fun h => hv (valid_iff.2 h)
                              split at ho
                              · injection ho with ho1 ho2
                                subst ho1; subst ho2
                                exact ⟨.refl hi, fun e h => by injection h with h; subst h; exact hks _ rfl, fun h => by cases h⟩
                              · injection ho with ho1 ho2
                                subst ho1; subst ho2
                                have ht : ∀ x, x ∈ (assocSet cmd (SecObj.null [] []) s.sections).map Prod.fst ↔ x ∈ s.tags ∨ x = cmd := by
                                  intro x
                                  rw [keys_assocSet_new hnt]
                                  simp [PState.tags]
                                refine ⟨⟨⟨fun x hx => ?_, hi.cmds⟩, fun x hx => (ht x).2 (.inl hx)⟩, fun e h => (by cases h), fun _ => (ht cmd).2 (.inr rfl)⟩
                                injection hx with hx
                                exact (ht x).2 (.inr hx.symm)
                          cases o with
                          | some e => exact herr hop.1 (hop.2.1 e rfl)
                          | none =>
                            simp only
                            have hh := handleHeader_fine (cfg := cfg) (n := n + 1) (args := cmd :: args) hks hop.1.inv (hop.2.2 rfl)
                            have ht := tryFunc_fine (cfg := cfg) hh.1 hh.2
                            cases htr : tryFunc cfg (handleHeader cfg cmd (n + 1) (cmd :: args) s1) with
                            | mk s2 o2 =>
                              rw [htr] at ht
                              cases o2 with
                              | some e => exact herr (hop.1.trans ht.1) (ht.2 e rfl)
                              | none => exact hsec (hop.1.trans ht.1) (ht.1.tags _ (hop.2.2 rfl)) (fun l hl => by simp [hl])
                      · simp only [if_neg h3]
                        have := tryFunc_fine (cfg := cfg) (P := P) (Q := Q) (s := s) (x := handleCommand disp (n + 1) (cmd :: args) line s)
                          ⟨⟨hi.section_, hdisp _ _ _ _ hi.cmds⟩, fun _ h => h⟩ (fun e h => hl.cmd hb' _ _ _ e hi.cmds hsp h)
                        exact hres this.1 this.2
                | some name =>
                  simp only
                  by_cases h2 : s.includeDepth > 0
                  · simp only [if_pos h2]
                    exact hsec (.refl hi) (hi.section_ name hst) (fun l hl => by simpa using hl)
                  · simp only [if_neg h2]; exact hgo (.refl hi) (fun l hl => by simp [hl])

theorem lineOk_nil : LineOk P Q disp [] :=
  ⟨fun h => (by cases h), fun h => (by cases h), fun h => (by cases h), fun h => (by cases h), fun h => (by cases h)⟩

theorem readFile_fine {w : World} (hks : ∀ e : Exc, e.isKickstartError = true → P e) (hrec : P .recursion)
    (hdisp : ∀ n ws l c, Q c → Q (disp n ws l c).1) (hload : ∀ f e, w.load f = .error e → P e)
    (hL : ∀ f t, w.load f = .ok t → ∀ l ∈ splitLines t, LineOk P Q disp l) (d : Nat) : IncFine P Q (readFile cfg w disp d) := by
  induction d with
  | zero => exact fun f s hi => ⟨.refl hi, fun e h => by injection h with h; subst h; exact hrec⟩
  | succ d ih =>
    intro f s hi
    rw [readFile]
    have hi1 : Inv Q (noteDir w (resolvePath w s f) s) := ⟨hi.section_, hi.cmds⟩
    have hf : Fine Q s (noteDir w (resolvePath w s f) s) := ⟨hi1, fun _ h => h⟩
    cases hl : w.load (resolvePath w s f) with
    | error e =>
      simp only
      split
      · exact ⟨hf, fun e' h => by injection h with h; subst h; exact hks _ rfl⟩
      · exact ⟨hf, fun e' h => by injection h with h; subst h; exact hload _ _ hl⟩
    | ok t =>
      simp only
      obtain ⟨a, b⟩ := run_fine (cfg := cfg) hks hdisp ih (2 * (splitLines t ++ [[]]).length + 2) (splitLines t ++ [[]])
        (fun l h => by
          rcases List.mem_append.1 h with h | h
          · exact hL _ _ hl l h
          · rw [List.mem_singleton.1 h]; exact lineOk_nil) 0 hi1
      exact ⟨hf.trans a, b⟩

end

section
variable {cfg : Cfg} {w : World} {disp : Disp C} {d : Nat} {s : PState C}

/-- Errors of reading, from errors of lines. -/
theorem reading_fine {P : Exc → Prop} {Q : C → Prop} (hks : ∀ e : Exc, e.isKickstartError = true → P e) (hrec : P .recursion)
    (hdisp : ∀ n ws l c, Q c → Q (disp n ws l c).1) (hload : ∀ f e, w.load f = .error e → P e)
    (hL : ∀ f t, w.load f = .ok t → ∀ l ∈ splitLines t, LineOk P Q disp l) (hq : Q s.cmds) :
    (∀ text, (∀ l ∈ splitLines text, LineOk P Q disp l) → ∀ e, (readString cfg w disp d text s).2 = some e → P e) ∧
    ∀ f e, (readKickstart cfg w disp d f s).2 = some e → P e := by
  have hinc : ∀ d, IncFine P Q (readFile cfg w disp d) := readFile_fine hks hrec hdisp hload hL
  have hi : Inv Q s.reset := ⟨fun n h => (by cases h), hq⟩
  refine ⟨fun text htext => (run_fine (cfg := cfg) hks hdisp (hinc d) _ _ (fun l hl => ?_) 0 hi).2, fun f => (hinc d f s.reset hi).2⟩
  rcases List.mem_append.1 hl with hl | hl
  · exact htext l hl
  · rw [List.mem_singleton.1 hl]; exact lineOk_nil

theorem escapes_line {P : Exc → Prop} {Q : C → Prop}
    (hP : ∀ e, e.isKickstartError = true ∨ (∃ x, e = .shlex x) ∨ e = .index → P e)
    (hcmd : ∀ n ws l c e, Q c → (disp n ws l c).2 = some e → P e) (l : Str) : LineOk P Q disp l where
  split := fun _ x _ => hP _ (.inr (.inl ⟨x, rfl⟩))
  word := fun _ _ _ _ => hP _ (.inr (.inr rfl))
  inner := fun _ x _ => hP _ (.inr (.inl ⟨x, rfl⟩))
  pkg := fun _ p e h => by
    rcases packages_line_err p l h with h | ⟨h, _⟩
    · refine hP _ (.inl ?_); cases e <;> first | rfl | cases h
    · exact hP _ (.inr (.inr h))
  cmd := fun _ n ws c e hq _ h => hcmd n ws l c e hq h

/-- C42, part: whatever the files contain, a parser whose commands raise only `KickstartError`s lets
nothing else escape than these, `ValueError` from splitting a line into words, `IndexError`, and
`RecursionError`.  (Missing from C42: the last three do happen.) -/
theorem C42_escapes_partial (hdisp : ∀ n ws l c e, (disp n ws l c).2 = some e → e.isKickstartError = true)
    (hload : ∀ f e, w.load f = .error e → e.isKickstartError = true) (text f : Str) :
    (∀ e, (readString cfg w disp d text s).2 = some e →
      e.isKickstartError = true ∨ (∃ x, e = .shlex x) ∨ e = .index ∨ e = .recursion) ∧
    (∀ e, (readKickstart cfg w disp d f s).2 = some e →
      e.isKickstartError = true ∨ (∃ x, e = .shlex x) ∨ e = .index ∨ e = .recursion) := by
  have hline : ∀ l, LineOk (fun e => e.isKickstartError = true ∨ (∃ x, e = .shlex x) ∨ e = .index ∨ e = .recursion) (fun _ => True) disp l :=
    escapes_line (fun e h => by rcases h with h | h | h <;> simp [h]) (fun n ws l c e _ h => .inl (hdisp n ws l c e h))
  have h := reading_fine (cfg := cfg) (d := d) (s := s) (w := w) (fun e h => .inl h) (.inr (.inr (.inr rfl))) (fun _ _ _ _ _ => trivial)
    (fun f e h => .inl (hload f e h)) (fun _ _ _ l _ => hline l) trivial
  exact ⟨h.1 text fun l _ => hline l, h.2 f⟩

/-- Lines that can be split into words, the first of them not empty, and that are not a lone `-`. -/
structure SoundLine (l : Str) : Prop where
  words : isBlankOrComment l = false → ∃ w ws, shlexSplit l true = .ok (w :: ws) ∧ w ≠ []
  inner : startsWith (lstrip l) c!"%" = true → ∃ ws, shlexSplit l false = .ok ws
  pkg : isBlankOrComment l = false → strip (partition '#' l).1 ≠ [] ∧ strip (partition '#' l).1 ≠ c!"-"

theorem sound_line {P : Exc → Prop} {Q : C → Prop} (hP : ∀ e : Exc, e.isKickstartError = true → P e) {l : Str} (h : SoundLine l)
    (hcmd : isBlankOrComment l = false → ∀ n ws c e, Q c → shlexSplit l true = .ok ws → (disp n ws l c).2 = some e → P e) : LineOk P Q disp l where
  split := fun hb x hx => by obtain ⟨w, ws, h1, _⟩ := h.words hb; rw [h1] at hx; cases hx
  word := fun hb ws hx h0 => by
    obtain ⟨w, ws', h1, h2⟩ := h.words hb
    rw [h1] at hx
    injection hx with hx
    subst hx
    exact absurd h0 h2
  inner := fun hp x hx => by obtain ⟨ws, h1⟩ := h.inner hp; rw [h1] at hx; cases hx
  pkg := fun hb p e he => by
    rcases packages_line_err p l he with h1 | ⟨_, h1⟩
    · refine hP _ ?_; cases e <;> first | rfl | cases h1
    · rcases List.mem_cons.1 h1 with h1 | h1
      · exact absurd h1 (h.pkg hb).1
      · exact absurd (List.mem_singleton.1 h1) (h.pkg hb).2
  cmd := hcmd

/-- C42, part: if every line of every file is sound, only `KickstartError`s escape, and
`RecursionError` for includes nested too deeply. -/
theorem C42_only_kickstart_errors_partial (hdisp : ∀ n ws l c e, (disp n ws l c).2 = some e → e.isKickstartError = true)
    (hload : ∀ f e, w.load f = .error e → e.isKickstartError = true)
    (hlines : ∀ f t, w.load f = .ok t → ∀ l ∈ splitLines t, SoundLine l) (text f : Str) (htext : ∀ l ∈ splitLines text, SoundLine l) :
    (∀ e, (readString cfg w disp d text s).2 = some e → e.isKickstartError = true ∨ e = .recursion) ∧
    (∀ e, (readKickstart cfg w disp d f s).2 = some e → e.isKickstartError = true ∨ e = .recursion) := by
  have hline : ∀ l, SoundLine l → LineOk (fun e => e.isKickstartError = true ∨ e = .recursion) (fun _ => True) disp l :=
    fun l hl => sound_line (fun e h => .inl h) hl fun _ n ws c e _ _ h => .inl (hdisp n ws l c e h)
  have h := reading_fine (cfg := cfg) (d := d) (s := s) (w := w) (fun e h => .inl h) (.inr rfl) (fun _ _ _ _ _ => trivial)
    (fun f e h => .inl (hload f e h)) (fun f t ht l hl => hline l (hlines f t ht l hl)) trivial
  exact ⟨h.1 text fun l hl => hline l (htext l hl), h.2 f⟩

end

theorem picky_raises (n : Nat) (ws : List Str) (l : Str) (c : List Str) (e : Exc) (h : (picky n ws l c).2 = some e) :
    e.isKickstartError = true := by
  unfold picky at h
  split at h
  · cases h
  · injection h with h; subst h; rfl

theorem sampleWorld_raises (f : Str) (e : Exc) (h : sampleWorld.load f = .error e) : e.isKickstartError = true := by
  unfold sampleWorld at h
  simp only at h
  repeat' split at h
  all_goals first | (cases h; done) | (injection h with h; subst h; rfl)

/-- `SoundLine` can be checked. -/
def soundLine (l : Str) : Bool :=
  (isBlankOrComment l ||
    (match shlexSplit l true with
      | .ok (w :: _) => decide (w ≠ [])
      | _ => false) &&
    decide (strip (partition '#' l).1 ≠ [] ∧ strip (partition '#' l).1 ≠ c!"-")) &&
  (! startsWith (lstrip l) c!"%" ||
    match shlexSplit l false with
    | .ok _ => true
    | .error _ => false)

theorem soundLine_sound {l : Str} (h : soundLine l = true) : SoundLine l := by
  unfold soundLine at h
  simp only [Bool.and_eq_true, Bool.or_eq_true, decide_eq_true_eq, Bool.not_eq_true'] at h
  obtain ⟨h1, h2⟩ := h
  refine ⟨fun hb => ?_, fun hp => ?_, fun hb => ?_⟩
  · rcases h1 with h1 | ⟨h1, _⟩
    · rw [hb] at h1; cases h1
    · split at h1
      · rename_i w ws hw; exact ⟨w, ws, hw, by simpa using h1⟩
      · cases h1
  · rcases h2 with h2 | h2
    · rw [hp] at h2; cases h2
    · split at h2
      · rename_i ws hw; exact ⟨ws, hw⟩
      · cases h2
  · rcases h1 with h1 | ⟨_, h1⟩
    · rw [hb] at h1; cases h1
    · exact h1

/-- The hypotheses hold for the sample files; their last line does raise an error. -/
example : (∀ e, (readKickstart { version := Version.F34 } sampleWorld picky 5 c!"/d/main" { cmds := [] }).2 = some e →
      e.isKickstartError = true ∨ e = .recursion) ∧
    (readKickstart { version := Version.F34 } sampleWorld picky 5 c!"/d/main" { cmds := [] }).2 = some (.parse c!"bad" (some 4)) := by
  refine ⟨(C42_only_kickstart_errors_partial picky_raises sampleWorld_raises ?_ [] c!"/d/main" (fun l hl => by cases (show splitLines [] = [] by decide +kernel) ▸ hl)).2, by decide +kernel⟩
  intro f t h l hl
  have key : ∀ l ∈ splitLines t, soundLine l = true := by
    unfold sampleWorld at h
    simp only at h
    repeat' split at h
    all_goals first | (cases h; done) | (injection h with h; subst h; decide +kernel)
  exact soundLine_sound (key l hl)

example : (readString { version := Version.F34 } sampleWorld picky 5 c!"ok \"1\n" { cmds := [] }).2.isSome = true ∧
    ∀ e, (readString { version := Version.F34 } sampleWorld picky 5 c!"ok \"1\n" { cmds := [] }).2 = some e →
      e.isKickstartError = true ∨ (∃ x, e = .shlex x) ∨ e = .index ∨ e = .recursion :=
  ⟨by decide +kernel, (C42_escapes_partial picky_raises sampleWorld_raises c!"ok \"1\n" []).1⟩

end Ks
