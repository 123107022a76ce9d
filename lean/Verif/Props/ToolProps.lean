import Verif.Tools
import Verif.Commands.Session
import Verif.Props.WriteProps
import Verif.Props.LoadProps
/-!
# C70: `ksflatten`; C71: `ksshell`
-/
namespace Ks
variable {σ δ : Type} {d : Disk} {n : Net} {cwd : Str} {exist : Str → Bool} {ver : Str} {disp : Nat → Disp (Handler σ δ)}
  {depth : Nat} {new : Nat → Handler σ δ}

/-- The versions of handlers have names. -/
theorem makeVersion_named {a : Version.VArg} {v : Nat} (h : Version.makeVersion a = .ok (some v)) :
    ∃ name, Version.versionToString v false = .ok name := by
  have key : ∀ m ∈ Version.handlerModules, ∀ c ∈ m.classes, ∀ v, c.2 = some v → (Version.versionToString v false).isOk = true := by
    decide +kernel
  have hi : ∀ m c, Version.importHandler m = .ok (some c) → ∀ v, c.2 = some v → (Version.versionToString v false).isOk = true := by
    intro m c hc v hv
    unfold Version.importHandler at hc
    cases hf : Version.handlerModules.find? (fun x => x.module == m) with
    | none => rw [hf] at hc; cases hc
    | some x =>
      rw [hf] at hc
      simp only [Except.ok.injEq] at hc
      exact key x (List.mem_of_find?_eq_some hf) c (List.mem_of_find?_eq_some hc) v hv
  have hr : ∃ m c, Version.importHandler m = .ok (some c) ∧ c.2 = some v := by
    unfold Version.makeVersion at h
    cases hc : Version.returnClassForVersion a with
    | error e => rw [hc] at h; cases h
    | ok o =>
      rw [hc] at h
      simp only [Except.map, Except.ok.injEq] at h
      cases o with
      | none => cases h
      | some c =>
        have hb : ∀ k : Int, ((Version.versionToString k true).bind fun m => Version.importHandler (lower m)) = .ok (some c) → ∃ m, Version.importHandler m = .ok (some c) := by
          intro k hk
          cases hv : Version.versionToString k true with
          | error e => rw [hv] at hk; cases hk
          | ok m => rw [hv] at hk; exact ⟨_, hk⟩
        have : ∃ m, Version.importHandler m = .ok (some c) := by
          unfold Version.returnClassForVersion at hc
          cases a with
          | int k => exact hb k hc
          | str s =>
            simp only at hc
            cases hp : pyInt s with
            | some k => rw [hp] at hc; exact hb k hc
            | none =>
              rw [hp] at hc
              simp only at hc
              cases hs : Version.stringToVersion s with
              | error e => rw [hs] at hc; cases hc
              | ok k => rw [hs] at hc; exact ⟨_, hc⟩
        obtain ⟨m, hm⟩ := this
        exact ⟨m, c, hm, h⟩
  obtain ⟨m, c, h1, h2⟩ := hr
  have := hi m c h1 v h2
  cases hv : Version.versionToString v false with
  | error e => rw [hv] at this; cases this
  | ok name => exact ⟨name, rfl⟩

theorem writeHandler_named {a : Version.VArg} {v sver : Nat} (h : Version.makeVersion a = .ok (some v)) (s : PState (Handler σ δ)) :
    ∃ text p, writeHandler ver v sver s = .ok (text, p) := by
  obtain ⟨name, hn⟩ := makeVersion_named h
  unfold writeHandler
  rw [hn]
  exact ⟨_, _, rfl⟩

/-- The file that is asked for can be flattened: there is such a version, and reading the file with
its commands raises nothing; `s` is the parser afterwards. -/
structure Read (opts : FlattenOpts) (d : Disk) (n : Net) (cwd : Str) (exist : Str → Bool) (disp : Nat → Disp (Handler σ δ))
    (depth : Nat) (new : Nat → Handler σ δ) (v : Nat) (s : PState (Handler σ δ)) : Prop where
  given : opts.kscfg ≠ []
  version : Version.makeVersion opts.version = .ok (some v)
  read : readKickstart { version := v } (worldOf d n cwd exist) (disp v) depth opts.kscfg { cmds := new v } = (s, none)

/-- The output can be opened. -/
def FlattenOpts.Opens (opts : FlattenOpts) (d : Disk) : Prop :=
  opts.output = [] ∨ ('\x00' ∉ opts.output ∧ d.writable opts.output = true)

variable {opts : FlattenOpts}

theorem flatten_read {v : Nat} {s : PState (Handler σ δ)} (h : Read opts d n cwd exist disp depth new v s) :
    ksflatten opts d n cwd exist ver disp depth new =
      (if opts.output = [] then
        match writeHandler ver v v s with
        | .error e => { disk := d, value := .raised e }
        | .ok (text, _) => { disk := d, stdout := [text], value := .code 0 }
      else if '\x00' ∈ opts.output then { disk := d, value := .raised .value }
      else if d.writable opts.output = false then { disk := d, value := .code 1 }
      else
        match writeHandler ver v v s with
        | .error e => { disk := d.write opts.output ([] : Str).utf8Encode, value := .raised e }
        | .ok (text, _) => { disk := (d.write opts.output ([] : Str).utf8Encode).write opts.output text.utf8Encode, value := .code 0 }) := by
  unfold ksflatten
  rw [if_neg h.given, h.version]
  simp only [h.read]
  rfl

/-- Nothing is left behind. -/
def Ended.Nothing (r : Ended) (d : Disk) : Prop := r.disk = d ∧ r.stdout = [] ∧ r.value ≠ .code 0

theorem flatten_unread (h : ¬ ∃ v s, Read opts d n cwd exist disp depth new v s) :
    (ksflatten opts d n cwd exist ver disp depth new).Nothing d := by
  unfold ksflatten
  split
  · exact ⟨rfl, rfl, by simp⟩
  · rename_i hk
    split
    · exact ⟨rfl, rfl, by simp⟩
    · exact ⟨rfl, rfl, by simp⟩
    · exact ⟨rfl, rfl, by simp⟩
    · rename_i v hv
      split
      · exact ⟨rfl, rfl, by simp only; split <;> simp⟩
      · rename_i s hs
        exact absurd ⟨v, s, hk, hv, hs⟩ h

/-- C70: `ksflatten` returns 0 exactly when there is a file and a version, reading the file raises no
exception and the output can be opened. -/
theorem C70_returns_zero : (ksflatten opts d n cwd exist ver disp depth new).value = .code 0 ↔
    (∃ v s, Read opts d n cwd exist disp depth new v s) ∧ opts.Opens d := by
  constructor
  · intro h
    by_cases hr : ∃ v s, Read opts d n cwd exist disp depth new v s
    · refine ⟨hr, ?_⟩
      obtain ⟨v, s, hr⟩ := hr
      rw [flatten_read hr] at h
      unfold FlattenOpts.Opens
      split at h
      · rename_i ho; exact .inl ho
      · split at h
        · simp at h
        · rename_i h0
          split at h
          · simp at h
          · rename_i hw
            exact .inr ⟨h0, by simpa using hw⟩
    · exact absurd h (flatten_unread hr).2.2
  · rintro ⟨⟨v, s, hr⟩, ho⟩
    obtain ⟨text, p, hw⟩ := writeHandler_named (ver := ver) (sver := v) hr.version s
    rw [flatten_read hr, hw]
    rcases ho with ho | ⟨h0, ho⟩
    · rw [if_pos ho]
    · by_cases he : opts.output = []
      · rw [if_pos he]
      · rw [if_neg he, if_neg h0, if_neg (by simp [ho])]

/-- C70: what is written then is the text of the handler after reading, for the version that was asked
for; it goes to stdout, or to the output file, and no other file changes. -/
theorem C70_written {v : Nat} {s : PState (Handler σ δ)} (hr : Read opts d n cwd exist disp depth new v s) (ho : opts.Opens d) :
    ∃ text p, writeHandler ver v v s = .ok (text, p) ∧
      (opts.output = [] → ksflatten opts d n cwd exist ver disp depth new = { disk := d, stdout := [text], value := .code 0 }) ∧
      (opts.output ≠ [] → (ksflatten opts d n cwd exist ver disp depth new).stdout = [] ∧
        (ksflatten opts d n cwd exist ver disp depth new).disk.file opts.output = some text.utf8Encode ∧
        ∀ g, g ≠ opts.output → d.same g opts.output = false →
          (ksflatten opts d n cwd exist ver disp depth new).disk.file g = d.file g) := by
  obtain ⟨text, p, hw⟩ := writeHandler_named (ver := ver) (sver := v) hr.version s
  refine ⟨text, p, hw, fun he => ?_, fun he => ?_⟩
  · rw [flatten_read hr, hw, if_pos he]
  · rcases ho with ho | ⟨h0, ho⟩
    · exact absurd ho he
    · rw [flatten_read hr, hw, if_neg he, if_neg h0, if_neg (by simp [ho])]
      refine ⟨rfl, by simp [Disk.write], fun g h1 h2 => by simp [Disk.write, h1, h2]⟩

/-- C70: otherwise nothing is written: the output file, if there is one, is as it was, even if an exception ends
the program. -/
theorem C70_nothing (h : (ksflatten opts d n cwd exist ver disp depth new).value ≠ .code 0) :
    (ksflatten opts d n cwd exist ver disp depth new).disk = d ∧ (ksflatten opts d n cwd exist ver disp depth new).stdout = [] := by
  by_cases hr : ∃ v s, Read opts d n cwd exist disp depth new v s
  · obtain ⟨v, s, hr⟩ := hr
    obtain ⟨text, p, hw⟩ := writeHandler_named (ver := ver) (sver := v) hr.version s
    rw [flatten_read hr, hw] at h ⊢
    by_cases he : opts.output = []
    · rw [if_pos he] at h; simp at h
    · rw [if_neg he] at h ⊢
      by_cases h0 : '\x00' ∈ opts.output
      · rw [if_pos h0]; exact ⟨rfl, rfl⟩
      · rw [if_neg h0] at h ⊢
        by_cases ho : d.writable opts.output = false
        · rw [if_pos ho]; exact ⟨rfl, rfl⟩
        · rw [if_neg ho] at h; simp at h
  · exact ⟨(flatten_unread hr).1, (flatten_unread hr).2.1⟩

/-- Every handler has a version. -/
theorem makeVersion_ne_none {a : Version.VArg} : Version.makeVersion a ≠ .ok none := by
  have key : ∀ m ∈ Version.handlerModules,
      ((m.classes.find? fun kv => endsWith (lower kv.1) (m.module ++ c!"handler")).bind (·.2)).isSome = true := by decide +kernel
  have hi : ∀ m, (Version.importHandler m).map (fun c => c.bind (·.2)) ≠ .ok none := by
    intro m hm
    unfold Version.importHandler at hm
    cases hf : Version.handlerModules.find? (fun x => x.module == m) with
    | none => rw [hf] at hm; cases hm
    | some x =>
      rw [hf] at hm
      have hx := List.find?_some hf
      simp only [beq_iff_eq] at hx
      subst hx
      simp only [Except.map, Except.ok.injEq] at hm
      have := key x (List.mem_of_find?_eq_some hf)
      rw [hm] at this
      cases this
  have hb : ∀ k : Int, ((Version.versionToString k true).bind fun m => Version.importHandler (lower m)).map (fun c => c.bind (·.2)) ≠ .ok none := by
    intro k hk
    cases hv : Version.versionToString k true with
    | error e => rw [hv] at hk; cases hk
    | ok m => rw [hv] at hk; exact hi _ hk
  unfold Version.makeVersion Version.returnClassForVersion
  cases a with
  | int k => exact hb k
  | str s =>
    simp only
    cases pyInt s with
    | some k => exact hb k
    | none =>
      simp only
      cases Version.stringToVersion s with
      | error e => intro h; cases h
      | ok k => exact hi _

theorem makeVersion_error {a : Version.VArg} {e : Exc} (he : Version.makeVersion a = .error e) : ∃ t, e = .version t := by
  have hi : ∀ m e, Version.importHandler m = .error e → ∃ t, e = .version t := by
    intro m e hm
    unfold Version.importHandler at hm
    split at hm
    · cases hm; exact ⟨_, rfl⟩
    · cases hm
  have hs : ∀ k b e, Version.versionToString k b = .error e → ∃ t, e = .version t := by
    intro k b e hk
    unfold Version.versionToString at hk
    repeat' split at hk
    all_goals first | (cases hk; exact ⟨_, rfl⟩) | cases hk
  have hs2 : ∀ k e, Version.stringToVersion k = .error e → ∃ t, e = .version t := by
    intro k e hk
    unfold Version.stringToVersion at hk
    repeat' split at hk
    all_goals first | (cases hk; exact ⟨_, rfl⟩) | cases hk
  have hb : ∀ k : Int, ∀ e, ((Version.versionToString k true).bind fun m => Version.importHandler (lower m)) = .error e → ∃ t, e = .version t := by
    intro k e hk
    cases hv : Version.versionToString k true with
    | error e => rw [hv] at hk; cases hk; exact hs _ _ _ hv
    | ok m => rw [hv] at hk; exact hi _ _ hk
  unfold Version.makeVersion at he
  cases hc : Version.returnClassForVersion a with
  | ok o => rw [hc] at he; cases he
  | error e' =>
    rw [hc] at he
    simp only [Except.map, Except.error.injEq] at he
    subst he
    unfold Version.returnClassForVersion at hc
    cases a with
    | int k => exact hb k _ hc
    | str s =>
      simp only at hc
      cases hp : pyInt s with
      | some k => rw [hp] at hc; exact hb k _ hc
      | none =>
        rw [hp] at hc
        simp only at hc
        cases hs : Version.stringToVersion s with
        | error e => rw [hs] at hc; cases hc; exact hs2 _ _ hs
        | ok k => rw [hs] at hc; exact hi _ _ hc

/-- C70: an exception that ends `ksflatten` is not a `KickstartError`: it is one that reading the file
raises, or the name of the output is refused. -/
theorem C70_raises {e : Exc} (h : (ksflatten opts d n cwd exist ver disp depth new).value = .raised e):
    e.isKickstartError = false ∧
    ((∃ v s, Version.makeVersion opts.version = .ok (some v) ∧
        readKickstart { version := v } (worldOf d n cwd exist) (disp v) depth opts.kscfg { cmds := new v } = (s, some e)) ∨
      e = .value ∧ '\x00' ∈ opts.output) := by
  by_cases hr : ∃ v s, Read opts d n cwd exist disp depth new v s
  · obtain ⟨v, s, hr⟩ := hr
    obtain ⟨text, p, hw⟩ := writeHandler_named (ver := ver) (sver := v) hr.version s
    rw [flatten_read hr, hw] at h
    split at h
    · simp at h
    · split at h
      · rename_i h0
        simp only [Outcome.raised.injEq] at h
        subst h
        exact ⟨rfl, .inr ⟨rfl, h0⟩⟩
      · split at h <;> simp at h
  · unfold ksflatten at h
    split at h
    · simp at h
    · rename_i hk
      split at h
      · simp at h
      · rename_i e' hne he
        obtain ⟨t, rfl⟩ := makeVersion_error he
        exact absurd rfl (hne t)
      · rename_i hn
        exact absurd hn makeVersion_ne_none
      · rename_i v hv'
        split at h
        · rename_i s e' hs
          simp only at h
          split at h
          · simp at h
          · rename_i hks
            simp only [Outcome.raised.injEq] at h
            subst h
            exact ⟨by simpa using hks, .inl ⟨v, s, hv', hs⟩⟩
        · rename_i s hs
          exact absurd ⟨v, s, hk, hv', hs⟩ hr

/-- Reading a file is reading its text. -/
theorem readKickstart_text {cfg : Cfg} {w : World} {C : Type} {disp : Disp C} {f text : Str} {s : PState C} (hl : w.load f = .ok text) :
    readKickstart cfg w disp (depth + 1) f s = readString cfg w disp depth text (noteDir w f s.reset) := by
  have hr : resolvePath w s.reset f = f := by simp [resolvePath, PState.reset]
  unfold readKickstart readFile readString
  simp only [hr, hl]
  rfl

/-- C70: the output stands alone. If the commands, scripts, sections and packages of the handler can be
written (the conditions of C54), then wherever the output file is taken, reading it needs no other file,
raises nothing, and gives the commands what the lines written for them say, the same scripts (each ended
by a line break) and the same package selection. -/
theorem C70_stands_alone {v : Nat} {s : PState (Handler σ δ)} (hr : Read opts d n cwd exist disp depth new v s) (ho : opts.Opens d)
    (hne : opts.output ≠ []) (hu : ¬ ∃ a b, opts.output = a ++ c!"://" ++ b)
    (hver : NoBreak ver) (hplat : NoBreak s.platform) (hv8 : v ≥ Version.F8)
    {items : List Item} (hdoc : IsDoc v standardTags s.cmds.str items) (hend : s.cmds.str = [] ∨ s.cmds.str.getLast? = some '\n')
    (hitems : ∀ it ∈ items, CommandItem it)
    {c : Handler σ δ} (hrun : runCommands (disp v) (if s.platform = [] then 2 else 3) items (new v) = (c, none))
    (hscr : ∀ sc ∈ s.scripts, sc.Writable standardTags)
    {ks : List Kept} (hks : s.nullStrings = ks.map Kept.text) (hkok : ∀ k ∈ ks, k.OK standardTags)
    (hpw : s.packages.Writable) (hps : s.packages.Supported v)
    {d' : Disk} (hd' : d'.file opts.output = (ksflatten opts d n cwd exist ver disp depth new).disk.file opts.output)
    (n' : Net) (cwd' : Str) (exist' : Str → Bool) :
    let r := readKickstart { version := v } (worldOf d' n' cwd' exist') (disp v) 1 opts.output { cmds := new v }
    r.2 = none ∧ r.1.cmds = c ∧ r.1.platform = strip s.platform ∧
    r.1.scripts.map (fun x => { x with lineno := none }) = s.scripts.map (fun sc => { sc with script := sc.ended, lineno := none }) ∧
    r.1.nullStrings = keptBack ks ∧
    (s.packages.Untouched → r.1.packages = {}) ∧ (¬ s.packages.Untouched → ({ s.packages with seen := true } : Packages).Reordered r.1.packages) := by
  obtain ⟨text, p, hw, -, h2⟩ := C70_written (ver := ver) hr ho
  obtain ⟨-, h3, -⟩ := h2 hne
  have h0 : '\x00' ∉ opts.output := by
    rcases ho with ho | ho
    · exact absurd ho hne
    · exact ho.1
  have hl : (worldOf d' n' cwd' exist').load opts.output = .ok text := by
    change loadToStr d' n' opts.output = .ok text
    rw [C69_file_text hu h0, hd', h3]
  simp only
  rw [readKickstart_text hl]
  have hcl : Clean (noteDir (worldOf d' n' cwd' exist') opts.output ({ cmds := new v } : PState (Handler σ δ)).reset) := by
    obtain ⟨a, b, c, d⟩ := clean_new (new v)
    exact ⟨rfl, b, c, d⟩
  have := C54_file_roundtrip (cfg := { version := v }) (w := worldOf d' n' cwd' exist') (disp := disp v) (d := 0)
    (s := noteDir (worldOf d' n' cwd' exist') opts.output ({ cmds := new v } : PState (Handler σ δ)).reset) (ks := ks) (items := items) (c := c)
    hw hver hplat hv8 hcl (fun t => by cases t <;> rfl) rfl (show ∀ t ∈ standardTags, startsWith t c!"%end" = false ∧ t.head? = some '%' by decide) hdoc hend hitems hrun hscr hks hkok hpw hps
  obtain ⟨a1, a2, a3, a4, a5, a6, a7, a8⟩ := this
  refine ⟨a1, a2, ?_, a4, a5, a6, a7⟩
  rw [a3]
  split
  · rename_i he; rw [he]; rfl
  · rfl

/-! ## `ksshell` -/

/-- The state after lines, given what one line does: `shellLoop` stops at `.quit` and at a crash. -/
theorem shellLoop_append {env : ShellEnv σ δ} {a b : List Str} {s s' : Shell σ δ} (h : shellLoop env a s = .ok s')
    (hq : ∀ l ∈ a, ¬ (startsWith l c!"." = true ∧ (splitWs l).headD [] = c!".quit")) :
    shellLoop env (a ++ b) s = shellLoop env b s' := by
  induction a generalizing s with
  | nil => cases h; rfl
  | cons l t ih =>
    rw [List.cons_append]
    rw [shellLoop] at h ⊢
    cases hl : shellLine env l s with
    | next s1 => rw [hl] at h; exact ih h (fun x hx => hq x (List.mem_cons_of_mem _ hx))
    | crash e => rw [hl] at h; cases h
    | quit s1 =>
      exfalso
      refine hq l (List.mem_cons_self ..) ?_
      unfold shellLine at hl
      split at hl
      · rename_i hd
        refine ⟨hd, ?_⟩
        simp only at hl
        split at hl
        · cases hl
        · split at hl
          · split at hl <;> cases hl
          · split at hl
            · assumption
            · cases hl
      · split at hl
        · cases hl
        · split at hl <;> cases hl

/-- C71: `.quit` ends the shell as ^D does: the lines after it are not looked at. -/
theorem C71_quit {env : ShellEnv σ δ} {a b : List Str} {s s' : Shell σ δ} (h : shellLoop env a s = .ok s') :
    shellLoop env (a ++ c!".quit" :: b) s = .ok s' := by
  induction a generalizing s with
  | nil => cases h; rfl
  | cons l t ih =>
    rw [List.cons_append]
    rw [shellLoop] at h ⊢
    cases hl : shellLine env l s with
    | next s1 => rw [hl] at h; exact ih h
    | crash e => rw [hl] at h; cases h
    | quit s1 => rw [hl] at h; exact h

/-- What the shell writes for its handler. -/
def Shell.text (env : ShellEnv σ δ) (s : Shell σ δ) : Except Exc Str := (writeHandler env.ver env.version env.version s.handler).map (·.1)

/-- C71: looking at the file with `.show` prints its text and changes nothing of it, and an unknown
internal command does nothing at all. -/
theorem C71_show {env : ShellEnv σ δ} {s : Shell σ δ} {text : Str} (h : s.text env = .ok text) (l : Str) (hl : startsWith l c!"." = true) :
    ((splitWs l).headD [] = c!".show" → ∃ s', shellLine env l s = .next s' ∧ s'.stdout = s.stdout ++ [text ++ c!"\n"] ∧ s'.text env = .ok text ∧
      s'.parser.cmds = s.parser.cmds ∧ s'.parser.scripts = s.parser.scripts ∧ s'.cleared = s.cleared) ∧
    ((splitWs l).headD [] ∉ [c!".clear", c!".show", c!".quit"] → shellLine env l s = .next s) := by
  refine ⟨fun hw => ?_, fun hw => ?_⟩
  · unfold Shell.text at h ⊢
    unfold shellLine
    rw [if_pos hl]
    rw [hw]
    simp only [show c!".show" ≠ c!".clear" by decide, if_false, if_true]
    cases hx : writeHandler env.ver env.version env.version s.handler with
    | error e => rw [hx] at h; cases h
    | ok x =>
      obtain ⟨t, p⟩ := x
      rw [hx] at h
      simp only [Except.map, Except.ok.injEq] at h
      subst h
      refine ⟨_, rfl, rfl, ?_, ?_, ?_, rfl⟩
      · by_cases hc : s.cleared = true
        · simp only [Shell.handler, hc, if_true] at hx ⊢
          rw [hx]; rfl
        · simp only [Shell.handler, hc, Bool.false_eq_true, if_false] at hx ⊢
          unfold writeHandler at hx ⊢
          cases hv : Version.versionToString env.version false with
          | error e => rw [hv] at hx; cases hx
          | ok v =>
            rw [hv] at hx
            simp only [Except.ok.injEq, Prod.mk.injEq] at hx ⊢
            obtain ⟨h1, rfl⟩ := hx
            simp only [Except.map, C23_idempotent, Except.ok.injEq]
            exact h1
      · split <;> rfl
      · split <;> rfl
  · simp only [List.mem_cons, List.not_mem_nil, or_false, not_or] at hw
    unfold shellLine
    rw [if_pos hl]
    simp only [hw, if_false]

/-- C71: no `KickstartError` ends the shell. Every other exception does, and then nothing is written: what
was typed is lost. -/
theorem C71_errors {env : ShellEnv σ δ} {s : Shell σ δ} {l : Str} (hl : startsWith l c!"." = false) :
    (∀ e, (readString env.cfg env.world env.disp env.depth l s.parser).2 = some e → e.isKickstartError = false → shellLine env l s = .crash e) ∧
    ((∀ e, (readString env.cfg env.world env.disp env.depth l s.parser).2 = some e → e.isKickstartError = true) →
      shellLine env l s = .next { s with parser := (readString env.cfg env.world env.disp env.depth l s.parser).1 }) := by
  unfold shellLine
  rw [if_neg (by simp [hl])]
  cases hr : readString env.cfg env.world env.disp env.depth l s.parser with
  | mk p o =>
    cases o with
    | none => simp
    | some e =>
      refine ⟨?_, ?_⟩
      · intro e' he hk
        cases he
        simp [hk]
      · intro h
        simp [h e rfl]

/-- C71: after `.clear` nothing of a section reaches the file, whatever is typed: the scripts, packages and
other sections of the handler stay empty. -/
theorem C71_clear_loses_sections {env : ShellEnv σ δ} {s s' : Shell σ δ} {ls : List Str} (hc : s.cleared = true)
    (h : shellLoop env ls s = .ok s') : s'.cleared = true ∧ s'.handler.scripts = [] ∧ s'.handler.packages = {} ∧ s'.handler.nullStrings = [] := by
  have key : s'.cleared = true := by
    induction ls generalizing s with
    | nil => cases h; exact hc
    | cons l t ih =>
      rw [shellLoop] at h
      have hn : ∀ x, (shellLine env l s = .next x ∨ shellLine env l s = .quit x) → x.cleared = true := by
        intro x hx
        unfold shellLine at hx
        split at hx
        · simp only at hx
          split at hx
          · rcases hx with hx | hx <;> cases hx; rfl
          · split at hx
            · split at hx
              · rcases hx with hx | hx <;> cases hx
              · rcases hx with hx | hx <;> cases hx; exact hc
            · split at hx
              · rcases hx with hx | hx <;> cases hx; exact hc
              · rcases hx with hx | hx <;> cases hx; exact hc
        · split at hx
          · rcases hx with hx | hx <;> cases hx; exact hc
          · split at hx
            · rcases hx with hx | hx <;> cases hx; exact hc
            · rcases hx with hx | hx <;> cases hx
      cases hl : shellLine env l s with
      | next y => rw [hl] at h; exact ih (hn y (.inl hl)) h
      | quit y => rw [hl] at h; exact Except.ok.inj h ▸ hn y (.inr hl)
      | crash e => rw [hl] at h; cases h
  simp [Shell.handler, key]

/-- C71: apart from that, `.clear` starts again with a new handler: what is written then is what a new
shell writes for the same commands. -/
theorem C71_clear {env : ShellEnv σ δ} {s : Shell σ δ} {l : Str} (hl : startsWith l c!"." = true) (hw : (splitWs l).headD [] = c!".clear") :
    ∃ s', shellLine env l s = .next s' ∧ s'.handler.cmds = env.new ∧ s'.handler.platform = [] ∧
      s'.text env = Shell.text env { parser := { cmds := env.new } } := by
  refine ⟨{ s with parser := { s.parser with cmds := env.new, platform := [] }, cleared := true }, ?_, rfl, rfl, rfl⟩
  unfold shellLine
  rw [if_pos hl, hw]
  rfl

/-- The shell that `main` makes for a version. -/
def shellEnv (d : Disk) (n : Net) (cwd : Str) (exist : Str → Bool) (ver : Str) (disp : Nat → Disp (Handler σ δ)) (depth : Nat)
    (new : Nat → Handler σ δ) (v : Nat) : ShellEnv σ δ :=
  { version := v, world := worldOf d n cwd exist, ver, disp := disp v, depth, new := new v }

/-- C71: when the input and the lines end without an exception, the text of the handler is written to the output,
or to stdout after what `.show` printed; an output that cannot be opened raises `IOError`, and nothing is written. -/
theorem C71_ends {opts : ShellOpts} {temp : Str} {lines : List Str} {v : Nat} {p : PState (Handler σ δ)} {s : Shell σ δ}
    (hv : Version.makeVersion opts.version = .ok (some v))
    (hi : shellInput (shellEnv d n cwd exist ver disp depth new v) opts.input temp { cmds := new v } = .ok p)
    (hl : shellLoop (shellEnv d n cwd exist ver disp depth new v) lines { parser := p } = .ok s) :
    ∃ text, s.text (shellEnv d n cwd exist ver disp depth new v) = .ok text ∧
      (opts.output = [] → ksshell opts d n cwd exist ver temp disp depth new lines =
        { disk := d, stdout := s.stdout ++ [c!"\n" ++ text ++ c!"\n"], value := .code 0 }) ∧
      (opts.output ≠ [] → '\x00' ∉ opts.output → d.writable opts.output = true →
        (ksshell opts d n cwd exist ver temp disp depth new lines).value = .code 0 ∧
        (ksshell opts d n cwd exist ver temp disp depth new lines).disk.file opts.output = some text.utf8Encode) ∧
      (opts.output ≠ [] → '\x00' ∉ opts.output → d.writable opts.output = false →
        ksshell opts d n cwd exist ver temp disp depth new lines = { disk := d, stdout := s.stdout, value := .ioError }) := by
  obtain ⟨text, q, hw⟩ := writeHandler_named (ver := ver) (sver := v) hv s.handler
  have key : ksshell opts d n cwd exist ver temp disp depth new lines =
      (if opts.output = [] then
          match writeHandler ver v v s.handler with
          | .error e => { disk := d, stdout := s.stdout, value := .raised e }
          | .ok (text, _) => { disk := d, stdout := s.stdout ++ [c!"\n" ++ text ++ c!"\n"], value := .code 0 }
        else if '\x00' ∈ opts.output then { disk := d, stdout := s.stdout, value := .raised .value }
        else if d.writable opts.output = false then { disk := d, stdout := s.stdout, value := .ioError }
        else
          match writeHandler ver v v s.handler with
          | .error e => { disk := d.write opts.output ([] : Str).utf8Encode, stdout := s.stdout, value := .raised e }
          | .ok (text, _) => { disk := (d.write opts.output ([] : Str).utf8Encode).write opts.output text.utf8Encode, stdout := s.stdout, value := .code 0 }) := by
    unfold ksshell
    rw [hv]
    unfold shellEnv at hi hl
    simp only [hi, hl]
    rfl
  refine ⟨text, by unfold Shell.text shellEnv; simp only [hw]; rfl, ?_, ?_, ?_⟩
  · intro ho
    rw [key, if_pos ho, hw]
  · intro ho h0 hwr
    rw [key, if_neg ho, if_neg h0, if_neg (by simp [hwr]), hw]
    exact ⟨rfl, by simp [Disk.write]⟩
  · intro ho h0 hwr
    rw [key, if_neg ho, if_neg h0, if_pos hwr]

/-- C71: when a line crashes the shell, no file changes and nothing is written. -/
theorem C71_crash {opts : ShellOpts} {temp : Str} {lines : List Str} {v : Nat} {p : PState (Handler σ δ)} {e : Exc}
    (hv : Version.makeVersion opts.version = .ok (some v))
    (hi : shellInput (shellEnv d n cwd exist ver disp depth new v) opts.input temp { cmds := new v } = .ok p)
    (hl : shellLoop (shellEnv d n cwd exist ver disp depth new v) lines { parser := p } = .error e) :
    (ksshell opts d n cwd exist ver temp disp depth new lines).disk = d ∧
    (ksshell opts d n cwd exist ver temp disp depth new lines).value = .raised e := by
  unfold ksshell
  rw [hv]
  unfold shellEnv at hi hl
  simp only [hi, hl]
  exact ⟨trivial, trivial⟩

/-- Typing command lines: each is given to the commands once, in order, as line 1 of a file of its own. -/
def typed (disp : Disp (Handler σ δ)) : List (Str × List Str) → Handler σ δ → Handler σ δ
  | [], h => h
  | (l, ws) :: t, h => typed disp t (disp 1 ws l h).1

/-- C71: if the lines are commands, the shell goes through all of them
and the handler is the one that all of them, in order, make; a command that fails does not keep the others
from being run. The errors are counted and printed, and nothing else changes. -/
theorem C71_commands {env : ShellEnv σ δ}
    (ls : List (Str × List Str)) (hls : ∀ x ∈ ls, CmdLine x.1 x.2 ∧ NoBreak x.1 ∧ startsWith x.1 c!"." = false) (s : Shell σ δ) :
    ∃ s', shellLoop env (ls.map (·.1)) s = .ok s' ∧ s'.parser.cmds = typed env.disp ls s.parser.cmds ∧
      s'.parser.scripts = s.parser.scripts ∧ s'.parser.packages = s.parser.packages ∧ s'.parser.nullStrings = s.parser.nullStrings ∧
      s'.parser.platform = s.parser.platform ∧ s'.cleared = s.cleared ∧ s'.stdout = s.stdout := by
  induction ls generalizing s with
  | nil => exact ⟨s, rfl, rfl, rfl, rfl, rfl, rfl, rfl, rfl⟩
  | cons x t ih =>
    obtain ⟨l, ws⟩ := x
    obtain ⟨h1, h2, h3⟩ := hls (l, ws) (List.mem_cons_self ..)
    simp only at h1 h2 h3
    have hsp : splitLines l ++ [[]] = [l, []] := by
      rw [splitLines_last h2 (ne_nil_of_not_blank h1.1)]; rfl
    obtain ⟨p, hp, q1, q2, q3, q4, q5⟩ : ∃ p, readString env.cfg env.world env.disp env.depth l s.parser = (p, none) ∧
        p.cmds = (env.disp 1 ws l s.parser.cmds).1 ∧ p.scripts = s.parser.scripts ∧ p.packages = s.parser.packages ∧
        p.nullStrings = s.parser.nullStrings ∧ p.platform = s.parser.platform := by
      unfold readString
      rw [hsp, stateMachine_eq, run_command h1 _ _ _ rfl]
      simp only [handleCommand, Nat.zero_add]
      cases hx : env.disp 1 ws l s.parser.reset.cmds with
      | mk c o =>
        have hx' : env.disp 1 ws l s.parser.cmds = (c, o) := hx
        cases o with
        | none => exact ⟨_, rfl, by rw [hx'], rfl, rfl, rfl, rfl⟩
        | some e =>
          refine ⟨{ s.parser.reset with cmds := c, errorsCount := s.parser.errorsCount + 1, printed := s.parser.printed ++ [e] },
            by simp only [tryFunc, ShellEnv.cfg, Bool.false_eq_true, if_false]; exact run_eof .., by rw [hx'], rfl, rfl, rfl, rfl⟩
    obtain ⟨s', e0, e1, e2, e3, e4, e5, e6, e7⟩ := ih (fun x hx => hls x (List.mem_cons_of_mem _ hx)) { s with parser := p }
    refine ⟨s', ?_, by rw [e1, typed, q1], by rw [e2, q2], by rw [e3, q3], by rw [e4, q4], by rw [e5, q5], e6, e7⟩
    rw [List.map_cons, shellLoop]
    unfold shellLine
    rw [if_neg (by simp [h3]), hp]
    exact e0

/-! ### The hypotheses can be met -/

/-- The commands of the versions. -/
def versionDisp (_ : Nat) : Disp (Handler CState Ns) := fun n args line h => h.dispatch n args line

/-- Files with the given texts. -/
noncomputable def someFiles (l : List (Str × Str)) : Disk :=
  { file := fun g => (l.lookup g).map fun t => t.utf8Encode, writable := fun _ => true, same := fun _ _ => false }

/-- What is read from them. -/
def filesLoad (l : List (Str × Str)) (f : Str) : Except Exc Str :=
  if isUrl f then .error (.ks c!"Error accessing URL" none)
  else if '\x00' ∈ f then .error .value
  else match l.lookup f with
  | some t => .ok t
  | none => .error (.ks c!"Error opening file" none)

theorem someFiles_load (l : List (Str × Str)) : loadToStr (someFiles l) noNet = filesLoad l := by
  funext f
  unfold loadToStr filesLoad
  split
  · rfl
  · unfold loadFile
    split
    · rfl
    · simp only [someFiles]
      cases l.lookup f with
      | none => rfl
      | some t => simp [List.utf8Decode?_utf8Encode]

/-- A file that includes another. -/
def includeSample : List (Str × Str) := [(c!"a.ks", c!"lang en_US\n%include b.ks\n%post\nx\n%end\n"), (c!"b.ks", c!"timezone UTC\n")]

def flatSample : FlattenOpts := { kscfg := c!"a.ks", output := c!"out.ks" }

/-- The parser after reading it. -/
def includeRead : PState (Handler CState Ns) :=
  (readKickstart { version := Version.F34 } { cwd := c!"/", exist := fun _ => true, load := filesLoad includeSample } (versionDisp Version.F34) 3 flatSample.kscfg
    { cmds := newHandler Version.F34 }).1

theorem includeRead_read : Read flatSample (someFiles includeSample) noNet c!"/" (fun _ => true) versionDisp 3 newHandler
    Version.F34 includeRead := by
  refine ⟨by decide, by decide +kernel, ?_⟩
  unfold worldOf
  rw [someFiles_load]
  have h : (readKickstart { version := Version.F34 } { cwd := c!"/", exist := fun _ => true, load := filesLoad includeSample } (versionDisp Version.F34) 3 flatSample.kscfg
    { cmds := newHandler Version.F34 }).2 = none := by decide +kernel
  unfold includeRead
  rw [← h]

/-- The lines of its commands when it is written. -/
def includeItems : List Item :=
  [.skip c!"# System language\n", .cmd c!"lang en_US\n" [c!"lang", c!"en_US"], .skip c!"# System timezone\n", .cmd c!"timezone UTC\n" [c!"timezone", c!"UTC"],
   .skip c!"# System bootloader configuration\n", .cmd c!"bootloader --location=none\n" [c!"bootloader", c!"--location=none"]]

theorem emptyPackages_ok : ({} : Packages).Writable ∧ ({} : Packages).Supported Version.F34 := by
  refine ⟨⟨?_, ⟨by decide, by decide, by decide⟩, ?_, ?_, by decide, ?_, ?_, ?_⟩, ⟨?_, fun h => by cases h⟩⟩
  all_goals (intro s hs; cases hs)

theorem includeScripts_ok : ∀ sc ∈ [({ script := c!"x\n", inChroot := true, type := .post, lineno := some 3 } : Script)], sc.Writable standardTags := by
  intro sc h
  simp only [List.mem_cons, List.not_mem_nil, or_false] at h
  subst h
  exact ⟨⟨by decide, by decide⟩, fun l hl => (by cases hl), fun h => absurd rfl h, ⟨'x', by decide, by decide⟩, by decide +kernel⟩

/-- The file is flattened, and the output is read alone. -/
example : (ksflatten flatSample (someFiles includeSample) noNet c!"/" (fun _ => true) c!"3.34" versionDisp 3 newHandler).value = .code 0 ∧
    ∀ d' : Disk, d'.file flatSample.output = (ksflatten flatSample (someFiles includeSample) noNet c!"/" (fun _ => true) c!"3.34"
        versionDisp 3 newHandler).disk.file flatSample.output →
      (readKickstart { version := Version.F34 } (worldOf d' noNet c!"/" fun _ => false) (versionDisp Version.F34) 1 flatSample.output { cmds := newHandler Version.F34 }).2 = none := by
  refine ⟨C70_returns_zero.2 ⟨⟨_, _, includeRead_read⟩, .inr ⟨by decide, rfl⟩⟩, fun d' hd' => ?_⟩
  have hscr : includeRead.scripts = [{ script := c!"x\n", inChroot := true, type := .post, lineno := some 3 }] := by decide +kernel
  have hplat : includeRead.platform = [] := by decide +kernel
  have hnull : includeRead.nullStrings = [] := by decide +kernel
  have hend : includeRead.cmds.str.getLast? = some '\n' := by decide +kernel
  have hdoc : IsDoc Version.F34 standardTags includeRead.cmds.str includeItems := isDoc_of_check (by decide +kernel)
  have hitems : ∀ it ∈ includeItems, CommandItem it := by simp [includeItems, CommandItem]
  have hpk : includeRead.packages = {} := by decide +kernel
  have hrun : runCommands (versionDisp Version.F34) (if includeRead.platform = [] then 2 else 3) includeItems (newHandler Version.F34) =
      ((runCommands (versionDisp Version.F34) (if includeRead.platform = [] then 2 else 3) includeItems (newHandler Version.F34)).1, none) := by
    have : (runCommands (versionDisp Version.F34) (if includeRead.platform = [] then 2 else 3) includeItems (newHandler Version.F34)).2 = none := by decide +kernel
    rw [← this]
  exact (C70_stands_alone (ver := c!"3.34") includeRead_read (.inr ⟨by decide, rfl⟩) (by decide) (by rw [← isUrl_iff]; decide) (by decide) (by rw [hplat]; decide) (by decide)
    hdoc (.inr hend) hitems
    (c := (runCommands (versionDisp Version.F34) (if includeRead.platform = [] then 2 else 3) includeItems (newHandler Version.F34)).1) hrun
    (by rw [hscr]; exact includeScripts_ok) (ks := []) (by rw [hnull]; rfl) (by simp)
    (by rw [hpk]; exact emptyPackages_ok.1) (by rw [hpk]; exact emptyPackages_ok.2) hd' noNet c!"/" fun _ => false).1

/-- What a new shell of Fedora 34 makes of some lines. -/
def shellOf (lines : List Str) : Except Exc (Shell CState Ns) :=
  shellLoop ⟨Version.F34, ⟨c!"/", fun _ => true, filesLoad includeSample⟩, c!"3.34", versionDisp Version.F34, 3, newHandler Version.F34⟩
    lines { parser := { cmds := newHandler Version.F34 } }

/-- The shell does not survive a lone quote. -/
example : (shellOf [c!"lang en_US", c!"lang '"]).toOption.isNone = true := by decide +kernel

/-- An included section is kept, but not after `.clear`. -/
example : (shellOf [c!"%include a.ks"]).toOption.map (fun s => s.handler.scripts.length) = some 1 ∧
    (shellOf [c!".clear", c!"%include a.ks"]).toOption.map (fun s => (s.handler.scripts.length, s.parser.scripts.length)) = some (0, 1) := by decide +kernel

/-- A command that fails does not end the shell. -/
example : (shellOf [c!"lang", c!"foo", c!".show", c!"", c!".nothing"]).toOption.map (fun s => (s.parser.errorsCount, s.stdout.length)) = some (2, 1) := by decide +kernel

end Ks
