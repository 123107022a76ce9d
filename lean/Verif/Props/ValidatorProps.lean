import Verif.ValidatorLemmas
import Verif.Props.DocProps
import Verif.Commands.Session
/-!
# C68: what `ksvalidator` says about a file

The reading that the theorems compare with is the ordinary one (`readKickstart`), in which warnings
are only recorded.
-/
namespace Ks
variable {C : Type} {opts : ValidatorOpts} {env : ValidatorEnv} {header : Cfg → Header C} {disp' : Nat → Disp C}
  {depth : Nat} {new : Nat → C} {v : Nat} {f : Str}

/-- The parser `main` makes. -/
def ValidatorOpts.cfg (opts : ValidatorOpts) (v : Nat) : Cfg :=
  { version := v, followIncludes := opts.followincludes, errorsAreFatal := opts.firsterror }

/-- The program is asked to validate a file, which can be fetched, for a version that exists. -/
structure Asked (opts : ValidatorOpts) (env : ValidatorEnv) (f : Str) (v : Nat) : Prop where
  help : opts.help = false
  list : opts.listversions = false
  file : opts.ksfile = some f
  name : f ≠ []
  fetch : env.fetch f = .ok ()
  version : Version.makeVersion opts.version = .ok (some v)

theorem Asked.eq (h : Asked opts env f v) :
    ksvalidator opts env header disp' depth new =
      .ok (validateFile (header (opts.cfg v)) (opts.cfg v) env (disp' v) depth { cmds := new v }) := by
  obtain ⟨h1, h2, h3, h4, h5, h6⟩ := h
  cases f with
  | nil => exact absurd rfl h4
  | cons c t => simp [ksvalidator, h1, h2, h3, h5, h6, ValidatorOpts.cfg]

/-- C68: `ksvalidator` says that a file is valid (0 and no message) exactly when the preprocessed
text is not empty and reading it the ordinary way raises nothing, counts no error, and makes neither
the parser nor a command warn. -/
theorem C68_valid {warned : C → Nat} {disp : Disp C} (h : Asked opts env f v)
    (hr : RaisedBy (opts.cfg v) warned disp (disp' v) (header (opts.cfg v))) :
    ksvalidator opts env header disp' depth new = .ok (0, []) ↔
      ∃ text, preprocessFile env.world.load env.dest = .ok text ∧ text ≠ [] ∧
        (readKickstart (opts.cfg v) (env.world.put env.temp text) disp depth env.temp { cmds := new v }).2 = none ∧
        (readKickstart (opts.cfg v) (env.world.put env.temp text) disp depth env.temp { cmds := new v }).1.errorsCount = 0 ∧
        (readKickstart (opts.cfg v) (env.world.put env.temp text) disp depth env.temp { cmds := new v }).1.warnings = [] ∧
        warned (readKickstart (opts.cfg v) (env.world.put env.temp text) disp depth env.temp { cmds := new v }).1.cmds =
          warned (new v) := by
  rw [h.eq, Except.ok.injEq]
  unfold validateFile
  cases hp : preprocessFile env.world.load env.dest with
  | error e => simp [preprocessToTemp]
  | ok text =>
    by_cases ht : text = []
    · subst ht; simp [preprocessToTemp]
    · simp only [preprocessToTemp, ht, if_false, Except.ok.injEq, exists_eq_left', ne_eq, not_false_eq_true, true_and]
      have hc := readBy_corr rfl rfl hr (env.world.put env.temp text) depth env.temp
        ({ cmds := new v } : PState C).reset
      rw [readBy_plain] at hc
      rw [show ∀ w : World, readKickstart (opts.cfg v) w disp depth env.temp { cmds := new v } =
        readFile (opts.cfg v) w disp depth env.temp ({ cmds := new v } : PState C).reset from fun _ => rfl]
      cases hx : readFile (opts.cfg v) (env.world.put env.temp text) disp depth env.temp ({ cmds := new v } : PState C).reset with
      | mk t o =>
        cases hy : readBy (header (opts.cfg v)) (opts.cfg v) (env.world.put env.temp text) (disp' v) depth env.temp
            ({ cmds := new v } : PState C).reset with
        | mk t' o' =>
          rw [hx, hy] at hc
          constructor
          · intro h0
            cases o' with
            | some e => simp at h0
            | none =>
              have h0 : t'.errorsCount = 0 := by simpa using h0
              obtain ⟨⟨_, q0⟩, q1, q2, q3⟩ := hc.back ⟨(), rfl⟩ h0
              cases o with
              | some e => simp [toE] at q0
              | none => exact ⟨rfl, q1, List.eq_nil_of_length_eq_zero q2, q3⟩
          · rintro ⟨q0, q1, q2, q3⟩
            simp only at q0 q1 q2 q3
            subst q0
            have := hc.same ⟨⟨(), rfl⟩, q1, by simp only [toE]; rw [q2]; rfl, q3⟩
            cases o' with
            | some e => simp [toE] at this
            | none =>
              simp only [toE, Prod.mk.injEq, and_true] at this
              subst this
              simp [q1]

/-- C68: an empty file is never valid: `preprocessKickstart` returns `None` for it. -/
theorem C68_empty (h : Asked opts env f v) (he : preprocessFile env.world.load env.dest = .ok []) :
    ksvalidator opts env header disp' depth new = .ok (1, [.failed]) := by
  rw [h.eq]
  simp [validateFile, he, preprocessToTemp]

/-- C68: there is a message exactly when reading was broken off, and then the value is 1. -/
theorem C68_messages (h : Asked opts env f v) :
    (∃ k, ksvalidator opts env header disp' depth new = .ok (k, [])) ∨
    ksvalidator opts env header disp' depth new = .ok (1, [.failed]) := by
  rw [h.eq]
  unfold validateFile
  split
  · exact .inr rfl
  · exact .inr rfl
  · split
    · exact .inl ⟨_, rfl⟩
    · exact .inr rfl

/-- Reading reaches neither a header nor an include: every line is a command, blank or a comment. -/
theorem runBy_noHeaders {cfg : Cfg} {disp : Disp C} (inc inc' : Str → PState C → Res (PState C)) (g g' : Header C)
    (fuel : Nat) :
    ∀ (l : List Str) (n : Nat) (s : PState C), (∀ x ∈ l, x = [] ∨ SkipLine x ∨ ∃ ws, CmdLine x ws) → s.state = none →
      runBy g cfg disp inc fuel l n s = runBy g' cfg disp inc' fuel l n s := by
  induction fuel with
  | zero => intros; rfl
  | succ k ih =>
    intro l n s hl hs
    cases l with
    | nil => rfl
    | cons line rest =>
      have hrest : ∀ x ∈ rest, x = [] ∨ SkipLine x ∨ ∃ ws, CmdLine x ws := fun x hx => hl x (List.mem_cons_of_mem _ hx)
      simp only [runBy]
      by_cases h0 : line = []
      · simp [h0]
      · simp only [h0, if_false]
        rcases hl line (List.mem_cons_self ..) with h | h | ⟨ws, h⟩
        · exact absurd h h0
        · have key : ∀ (inc : Str → PState C → Res (PState C)) (g : Header C), stepBy g cfg disp inc line rest n s = .next (n + 1) rest (specialComment line s) := by
            intro inc g; simp [stepBy, h.2]
          rw [key, key]
          refine ih _ _ _ hrest ?_
          unfold specialComment
          split
          · exact hs
          · split <;> exact hs
        · obtain ⟨hb, hsp, c, w, r, hw, hc⟩ := h
          have key : ∀ (inc : Str → PState C → Res (PState C)) (g : Header C), stepBy g cfg disp inc line rest n s =
              .ofRes (n + 1) rest (tryFunc cfg (handleCommand disp (n + 1) ws line s)) := by
            intro inc g
            subst hw
            have hi : ∀ a : Str, a.head? = some '%' → (c :: w) ≠ a := by
              rintro a ha rfl
              simp at ha
              exact hc ha
            simp only [stepBy, hb, Bool.false_eq_true, if_false, hsp, hi c!"%include" rfl, hs, hi c!"%ksappend" rfl,
              List.head?_cons, hc]
          rw [key, key]
          have hst : (tryFunc cfg (handleCommand disp (n + 1) ws line s)).1.state = none := by
            simp only [handleCommand]
            cases (disp (n + 1) ws line s.cmds).2 with
            | none => exact hs
            | some e => simp only [tryFunc]; split <;> exact hs
          cases ht : tryFunc cfg (handleCommand disp (n + 1) ws line s) with
          | mk t o =>
            rw [ht] at hst
            cases o with
            | none => exact ih _ _ _ hrest hst
            | some e => rfl

/-- C68: without `--firsterror`, a file of commands gives the number of lines that fail when every
warning is a failure; the reading goes through all of them. -/
theorem C68_count (h : Asked opts env f v) (hf : opts.firsterror = false) {text : Str} {items : List Item}
    (hp : preprocessFile env.world.load env.dest = .ok text) (ht : text ≠ [])
    (hd : IsDoc v standardTags text items)
    (hi : ∀ it ∈ items, (∃ l, it = .skip l) ∨ ∃ l ws, it = .cmd l ws) :
    ksvalidator opts env header disp' (depth + 1) new =
      .ok ((failures (disp' v) ((numbered 0 items).filterMap callAt) (new v)).length, []) := by
  rw [h.eq]
  unfold validateFile
  rw [hp]
  simp only [preprocessToTemp, ht, if_false]
  have hl : ∀ x ∈ splitLines text ++ [[]], x = [] ∨ SkipLine x ∨ ∃ ws, CmdLine x ws := by
    intro x hx
    rw [hd.lines, List.mem_append] at hx
    rcases hx with hx | hx
    · obtain ⟨it, hit, hx⟩ := List.mem_flatMap.1 hx
      have hw := hd.wf it hit
      rcases hi it hit with ⟨l, rfl⟩ | ⟨l, ws, rfl⟩
      · simp only [Item.lines, List.mem_singleton] at hx
        subst hx
        exact .inr (.inl hw)
      · simp only [Item.lines, List.mem_singleton] at hx
        subst hx
        exact .inr (.inr ⟨ws, hw⟩)
    · exact .inl (by simpa using hx)
  have hex : resolvePath (env.world.put env.temp text) ({ cmds := new v } : PState C).reset env.temp = env.temp := by
    simp [resolvePath, World.put]
  have key : readBy (header (opts.cfg v)) (opts.cfg v) (env.world.put env.temp text) (disp' v) (depth + 1) env.temp
        ({ cmds := new v } : PState C).reset =
      readString (opts.cfg v) (env.world.put env.temp text) (disp' v) depth text
        (noteDir (env.world.put env.temp text) env.temp ({ cmds := new v } : PState C).reset) := by
    simp only [readBy, hex]
    rw [show (env.world.put env.temp text).load env.temp = .ok text by simp [World.put]]
    simp only
    rw [runBy_noHeaders _ (readFile (opts.cfg v) (env.world.put env.temp text) (disp' v) depth) _ (handleHeader (opts.cfg v)) _ _ _ _
      hl rfl, runBy_plain]
    rfl
  have hcl : Clean (noteDir (env.world.put env.temp text) env.temp ({ cmds := new v } : PState C).reset) := by
    obtain ⟨a, b, c, d⟩ := clean_new (new v)
    exact ⟨rfl, b, c, d⟩
  obtain ⟨h1, -, -, h4⟩ := C30_tolerant (cfg := opts.cfg v) (w := env.world.put env.temp text) (disp := disp' v) (d := depth) hf hcl hd
  rw [key]
  cases hx : readString (opts.cfg v) (env.world.put env.temp text) (disp' v) depth text
        (noteDir (env.world.put env.temp text) env.temp ({ cmds := new v } : PState C).reset) with
  | mk t o =>
    rw [hx] at h1 h4
    simp only at h1 h4
    subst h1
    simp only
    rw [h4]
    simp [noteDir, PState.reset]

/-! ## The commands of the versions -/

/-- The warnings the commands of a handler have issued. -/
def Handler.warnedOf (h : Handler CState Ns) : List (List Warn) := h.heap.map (·.inst.attrs.warned)

/-- The dispatcher of a handler, with a count of the lines that have made a command warn. -/
def noting : Disp (Handler CState Ns × Nat) := fun n args line c =>
  let r := c.1.dispatch n args line
  ((r.1, if r.1.warnedOf = c.1.warnedOf then c.2 else c.2 + 1), r.2)

/-- The same while warnings are raised (one of the ways in which that may leave the handler). -/
def raising : Disp (Handler CState Ns × Nat) := fun n args line c =>
  let r := noting n args line c
  if r.1.2 = c.2 then r else (r.1, some .value)

/-- `handleHeader` while warnings are raised. -/
def raisingHeader (cfg : Cfg) : Header C := fun name n args s =>
  let r := handleHeader cfg name n args s
  if r.1.warnings = s.warnings then r else (r.1, some .value)

theorem raising_raised (cfg : Cfg) : RaisedBy cfg (·.2) noting raising (raisingHeader cfg) where
  grow n args line c := by
    simp only [noting]
    split <;> omega
  disp n args line c := by
    refine ⟨fun h => ?_, fun h => ?_⟩
    · simp only [raising]; rw [if_pos (Classical.not_not.mp h)]
    · simp only [raising]; rw [if_neg h]; simp
  header name n args s := by
    refine ⟨fun h => ?_, fun h => ?_⟩
    · simp only [raisingHeader]; rw [if_pos (Classical.not_not.mp h)]
    · simp only [raisingHeader]; rw [if_neg h]; simp
  count name n args s := by
    simp only [raisingHeader]
    split <;> exact (handleHeader_counts cfg name n args s).1

/-- A system with one file. -/
def oneFile (text : Str) : ValidatorEnv :=
  { fetch := fun g => if g = c!"a.ks" then .ok () else .error (.ks c!"Error copying file" none)
    world := ⟨c!"/", fun g => g == c!"/tmp/d/ks.cfg", fun g => if g = c!"/tmp/d/ks.cfg" then .ok text else .error (.ks c!"Error opening file" none)⟩
    dest := c!"/tmp/d/ks.cfg", temp := c!"/tmp/x-ks.cfg" }

/-- What `ksvalidator` says about a file with that text. -/
def verdictOf (opts : ValidatorOpts) (text : Str) : Except Exc (Nat × List Note) :=
  ksvalidator { opts with ksfile := some c!"a.ks" } (oneFile text) raisingHeader (fun _ => raising) 5 fun v => (newHandler v, 0)

-- hypotheses: a valid file, one whose command warns, one whose section header warns, a wrong one
theorem asked_sample (text : Str) : Asked { ksfile := some c!"a.ks" } (oneFile text) c!"a.ks" Version.F34 :=
  ⟨rfl, rfl, rfl, by decide, by rfl, by decide +kernel⟩

example : verdictOf {} c!"lang en_US\n%post\nx\n%end\n" = .ok (0, []) := by decide +kernel
example : verdictOf {} c!"lang en_US\ninstall\nfoo\n" = .ok (2, []) := by decide +kernel
example : verdictOf {} c!"%traceback\nx\n%end\n" = .ok (1, []) := by decide +kernel
example : verdictOf { firsterror := true } c!"install\n" = .ok (1, [.failed]) := by decide +kernel
example : verdictOf {} c!"%foo\n" = .ok (1, [.failed]) := by decide +kernel
example : verdictOf {} [] = .ok (1, [.failed]) := by decide +kernel
example : verdictOf { version := .str c!"F99" } c!"lang en_US\n" = .ok (1, [.badVersion]) := by decide +kernel

/-- C68 (finding): the exit status of the program is the low byte of the value, so a file of which
every line is wrong can exit with status 0. -/
theorem C68_status_wraps : ∃ text,
    verdictOf {} text = .ok (256, []) ∧ exitStatus 256 = 0 ∧
    (∀ l ∈ splitLines text, ∀ n k, ∃ e, (noting n (splitWs l) l (newHandler Version.F34, k)).2 = some e) := by
  refine ⟨(List.replicate 256 c!"foo\n").flatten, ?_, rfl, ?_⟩
  · have hd : IsDoc Version.F34 standardTags (List.replicate 256 c!"foo\n").flatten (List.replicate 256 (.cmd c!"foo\n" [c!"foo"])) :=
      isDoc_of_check (by decide +kernel)
    have := C68_count (opts := { ksfile := some c!"a.ks" }) (env := oneFile (List.replicate 256 c!"foo\n").flatten)
      (header := raisingHeader) (disp' := fun _ => raising) (depth := 4) (new := fun v => (newHandler v, 0))
      (asked_sample _) rfl (text := (List.replicate 256 c!"foo\n").flatten) (by decide +kernel) (by decide +kernel) hd
      (fun it hi => .inr ⟨_, _, (List.mem_replicate.1 hi).2⟩)
    rw [show verdictOf {} (List.replicate 256 c!"foo\n").flatten = _ from this]
    have hk : ∀ (k : List Call) (c : Handler CState Ns × Nat), c.1.commands.lookup c!"foo" = none →
        (∀ x ∈ k, x.words = [c!"foo"]) → (failures raising k c).length = k.length := by
      intro k
      induction k with
      | nil => intro c _ _; rfl
      | cons x t ih =>
        intro c hc hx
        have h1 : raising x.lineno x.words x.line c = (c, some (.parse (c!"Unknown command: " ++ c!"foo") (some x.lineno))) := by
          rw [hx x (List.mem_cons_self ..)]
          simp [raising, noting, Handler.dispatch, hc]
        simp only [failures, h1, List.length_append]
        rw [ih c hc fun y hy => hx y (List.mem_cons_of_mem _ hy)]
        simp
        omega
    rw [hk _ _ (by decide +kernel)]
    · decide +kernel
    · decide +kernel
  · intro l hl n k
    have : l = c!"foo\n" := by
      have h : splitLines (List.replicate 256 c!"foo\n").flatten = List.replicate 256 c!"foo\n" := by decide +kernel
      rw [h] at hl
      exact (List.mem_replicate.1 hl).2
    subst this
    have h : (newHandler Version.F34).commands.lookup c!"foo" = none := by decide +kernel
    have hs : splitWs c!"foo\n" = [c!"foo"] := by decide +kernel
    rw [hs]
    simp only [noting, Handler.dispatch, h]
    exact ⟨_, rfl⟩

/-- C68: for fewer than 256 errors the exit status is 0 only for a valid file. -/
theorem C68_status {k : Nat} {m : List Note} (h : Asked opts env f v)
    (hk : ksvalidator opts env header disp' depth new = .ok (k, m)) (hl : k < 256) :
    exitStatus k = 0 ↔ ksvalidator opts env header disp' depth new = .ok (0, []) := by
  unfold exitStatus
  rw [Nat.mod_eq_of_lt hl, hk]
  rcases C68_messages (header := header) (disp' := disp') (depth := depth) (new := new) h with ⟨j, hj⟩ | hj
  · rw [hk] at hj
    cases hj
    simp
  · rw [hk] at hj
    cases hj
    simp

/-- Without `followIncludes` no file is read. -/
theorem handleInclude_off {cfg : Cfg} (hf : cfg.followIncludes = false) (inc inc' : Str → PState C → Res (PState C)) :
    handleInclude cfg inc = handleInclude cfg inc' := by
  funext f s
  simp [handleInclude, hf]

theorem readSection_off {cfg : Cfg} (hf : cfg.followIncludes = false) (inc inc' : Str → PState C → Res (PState C)) (name : Str)
    (l : List Str) : ∀ n (s : PState C), readSection cfg inc name l n s = readSection cfg inc' name l n s := by
  induction l with
  | nil => intros; rfl
  | cons line rest ih =>
    intro n s
    rw [readSection_cons, readSection_cons]
    have : secStep cfg inc name line rest n s = secStep cfg inc' name line rest n s := by
      unfold secStep
      rw [handleInclude_off hf inc inc']
    rw [this]
    cases secStep cfg inc' name line rest n s with
    | stop r => rfl
    | go s => exact ih _ _

theorem runBy_off {cfg : Cfg} (hf : cfg.followIncludes = false) (inc inc' : Str → PState C → Res (PState C)) {g : Header C} {disp : Disp C}
    (fuel : Nat) : ∀ l n (s : PState C), runBy g cfg disp inc fuel l n s = runBy g cfg disp inc' fuel l n s := by
  induction fuel with
  | zero => intros; rfl
  | succ k ih =>
    intro l n s
    cases l with
    | nil => rfl
    | cons line rest =>
      have : stepBy g cfg disp inc line rest n s = stepBy g cfg disp inc' line rest n s := by
        unfold stepBy
        rw [handleInclude_off hf inc inc', show readSection cfg inc = readSection cfg inc' from
          funext fun a => funext fun b => funext fun c => funext fun d => readSection_off hf inc inc' a b c d]
      simp only [runBy]
      rw [this]
      split
      · rfl
      · cases stepBy g cfg disp inc' line rest n s with
        | stop r => rfl
        | next n rest s => exact ih _ _ _

/-- C68: without `--followincludes` the answer depends on the preprocessed text alone: not on any
file that an `%include` names. -/
theorem C68_text_only {env' : ValidatorEnv} (h : Asked opts env f v) (h' : Asked opts env' f v) (hf : opts.followincludes = false)
    (ht : env'.temp = env.temp) (hc : env'.world.cwd = env.world.cwd)
    (hp : preprocessFile env'.world.load env'.dest = preprocessFile env.world.load env.dest) :
    ksvalidator opts env' header disp' depth new = ksvalidator opts env header disp' depth new := by
  rw [h.eq, h'.eq]
  congr 1
  unfold validateFile
  rw [hp]
  cases preprocessToTemp (preprocessFile env.world.load env.dest) with
  | error e => rfl
  | ok o =>
    cases o with
    | none => rfl
    | some text =>
      have key : readBy (header (opts.cfg v)) (opts.cfg v) (env'.world.put env'.temp text) (disp' v) depth env'.temp
            ({ cmds := new v } : PState C).reset =
          readBy (header (opts.cfg v)) (opts.cfg v) (env.world.put env.temp text) (disp' v) depth env.temp
            ({ cmds := new v } : PState C).reset := by
        cases depth with
        | zero => rfl
        | succ d =>
          have hex : ∀ e : ValidatorEnv, resolvePath (e.world.put e.temp text) ({ cmds := new v } : PState C).reset e.temp = e.temp := by
            intro e; simp [resolvePath, World.put]
          have hld : ∀ e : ValidatorEnv, (e.world.put e.temp text).load e.temp = .ok text := by
            intro e; simp [World.put]
          simp only [readBy, hex, hld]
          rw [runBy_off (cfg := opts.cfg v) hf _ (fun _ s => (s, none)),
            runBy_off (cfg := opts.cfg v) hf (readBy (header (opts.cfg v)) (opts.cfg v) (env.world.put env.temp text) (disp' v) d)
              (fun _ s => (s, none))]
          rw [ht]
          simp only [noteDir, World.put, hc]
      simp only [key]

example : Asked { ksfile := some c!"a.ks" } (oneFile c!"%include b\n") c!"a.ks" Version.F34 ∧
    preprocessFile (oneFile c!"%include b\n").world.load (oneFile c!"%include b\n").dest = .ok c!"%include b\n" :=
  ⟨asked_sample _, by decide +kernel⟩

end Ks
