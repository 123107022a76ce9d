import Verif.Props.DocProps
import Verif.Includes
/-!
# C32, C35–C40, C42: includes, unclosed and unknown sections, repeated reads, escaping exceptions
-/
namespace Ks
variable {C : Type}
variable {cfg : Cfg} {w : World} {disp : Disp C} {d : Nat} {text : Str} {s : PState C} {items : List Item}
variable {inc : Str → PState C → Res (PState C)}

/-! ## C35 -/

theorem readSection_congr {inc' : Str → PState C → Res (PState C)} (h : ∀ f s, handleInclude cfg inc f s = handleInclude cfg inc' f s)
    (name : Str) (lines : List Str) (n : Nat) (s : PState C) :
    readSection cfg inc name lines n s = readSection cfg inc' name lines n s := by
  induction lines generalizing n s with
  | nil => rfl
  | cons l ls ih => unfold readSection; simp only [h, ih]

theorem runFuel_congr {inc' : Str → PState C → Res (PState C)} (h : ∀ f s, handleInclude cfg inc f s = handleInclude cfg inc' f s)
    (fuel : Nat) (lines : List Str) (n : Nat) (s : PState C) :
    runFuel cfg disp inc fuel lines n s = runFuel cfg disp inc' fuel lines n s := by
  induction fuel generalizing lines n s with
  | zero => rfl
  | succ fuel ih =>
    cases lines with
    | nil => rfl
    | cons l ls =>
      have hstep : step cfg disp inc l ls n s = step cfg disp inc' l ls n s := by
        unfold step; simp only [h, readSection_congr h]
      rw [runFuel, runFuel, hstep]
      simp only [ih]

theorem handleInclude_ignored (h : cfg.followIncludes = false) (f : Str) (s : PState C) : handleInclude cfg inc f s = (s, none) := by
  simp [handleInclude, h]

/-- C35: with `followIncludes=False`, reading a string depends neither on the file system nor on the
recursion limit. -/
theorem C35_independent (h : cfg.followIncludes = false) (w w' : World) (d d' : Nat) (text : Str) (s : PState C) :
    readString cfg w disp d text s = readString cfg w' disp d' text s :=
  runFuel_congr (fun f s => by rw [handleInclude_ignored h, handleInclude_ignored h]) ..

/-- C35 for a file: only that file matters. -/
theorem C35_independent_file (h : cfg.followIncludes = false) (w w' : World) (d d' : Nat) (f : Str) (s : PState C)
    (hl : w.load f = w'.load f) (hcwd : w.cwd = w'.cwd) :
    readKickstart cfg w disp (d + 1) f s = readKickstart cfg w' disp (d' + 1) f s := by
  have hp : ∀ w : World, resolvePath w s.reset f = f := fun w => by unfold resolvePath; split <;> rfl
  unfold readKickstart
  rw [readFile, readFile]
  simp only [hp, ← hl]
  have hn : noteDir w f s.reset = noteDir w' f s.reset := by unfold noteDir; rw [hcwd]
  rw [hn]
  cases w.load f with
  | error e => rfl
  | ok t => exact runFuel_congr (fun f s => by rw [handleInclude_ignored h, handleInclude_ignored h]) ..

/-- Replace an include line by an empty line. -/
def blankIncl : Item → Item
  | .incl _ _ => .skip c!"\n"
  | it => it

theorem blankIncl_length (it : Item) : (blankIncl it).lines.length = it.lines.length := by cases it <;> rfl

theorem blankIncl_exec (it : Item) (n : Nat) (v : View C) : (blankIncl it).exec cfg disp n v = it.exec cfg disp n v := by
  cases it <;> rfl

theorem execAll_blankIncl (items : List Item) (n : Nat) (v : View C) :
    execAll cfg disp (numbered n (items.map blankIncl)) v = execAll cfg disp (numbered n items) v := by
  induction items generalizing n v with
  | nil => rfl
  | cons it t ih =>
    rw [List.map_cons, numbered, numbered, execAll, execAll, blankIncl_exec, blankIncl_length]
    cases it.exec cfg disp n v with
    | mk v' e => cases e with
      | none => exact ih _ _
      | some e => rfl

/-- Tags, nesting depth and the directories of the files being read are the same. -/
structure Stable (s s' : PState C) : Prop where
  tags : s'.tags = s.tags
  depth : s'.includeDepth = s.includeDepth
  dirs : ∀ j ≤ s.includeDepth, s'.currentdir.lookup j = s.currentdir.lookup j

theorem Stable.refl (s : PState C) : Stable s s := ⟨rfl, rfl, fun _ _ => rfl⟩
theorem Stable.trans {a b c : PState C} (h : Stable a b) (h' : Stable b c) : Stable a c :=
  ⟨h'.tags.trans h.tags, h'.depth.trans h.depth, fun j hj => (h'.dirs j (by rw [h.depth]; exact hj)).trans (h.dirs j hj)⟩
theorem Keeps.stable {a b : PState C} (h : Keeps a b) : Stable a b := ⟨h.tags, h.depth, fun _ _ => by rw [h.dirs]⟩

/-- Parts among which the includes have no effect. -/
theorem run_noEffect {s : PState C} (hc : Clean s) {items : List Item} (hw : ∀ it ∈ items, it.WF cfg.version s.tags)
    (hinc : ∀ l f, .incl l f ∈ items → ∀ s1, Clean s1 → Stable s s1 →
      ∃ s2, handleInclude cfg inc f s1 = (s2, none) ∧ s2.view = s1.view ∧ Clean s2 ∧ Stable s1 s2) (rest : List Str) (n : Nat) :
    ∃ s', s'.view = (execAll cfg disp (numbered n items) s.view).1 ∧ Clean s' ∧ Stable s s' ∧
      run cfg disp inc (items.flatMap Item.lines ++ rest) n s =
        match (execAll cfg disp (numbered n items) s.view).2 with
        | none => run cfg disp inc rest (n + (items.flatMap Item.lines).length) s'
        | some e => (s', some e) := by
  induction items generalizing s n with
  | nil => exact ⟨s, rfl, hc, .refl _, rfl⟩
  | cons it items ih =>
    have hone : ∃ s', s'.view = (it.exec cfg disp n s.view).1 ∧ Clean s' ∧ Stable s s' ∧
      run cfg disp inc (it.lines ++ (items.flatMap Item.lines ++ rest)) n s =
        match (it.exec cfg disp n s.view).2 with
        | none => run cfg disp inc (items.flatMap Item.lines ++ rest) (n + it.lines.length) s'
        | some e => (s', some e) := by
      by_cases hi : ∀ l f, it ≠ .incl l f
      · obtain ⟨s1, a, b, c, e⟩ := run_item (cfg := cfg) (disp := disp) (inc := inc) hc (hw it (by simp)) hi (items.flatMap Item.lines ++ rest) n
        exact ⟨s1, a, b, c.stable, e⟩
      · simp only [Classical.not_forall, Classical.not_not] at hi
        obtain ⟨l, f, rfl⟩ := hi
        obtain ⟨s2, e, hv, hc2, hk⟩ := hinc l f (by simp) s hc (.refl _)
        refine ⟨s2, hv, hc2, hk, ?_⟩
        have hl : IncludeLine l f := hw (.incl l f) (by simp)
        simp only [Item.lines, List.cons_append, List.nil_append]
        rw [run_include hl, e]
        rfl
    obtain ⟨s1, hv1, hc1, hk1, hr1⟩ := hone
    simp only [List.flatMap_cons, List.append_assoc]
    rw [hr1, numbered, execAll]
    cases hex : it.exec cfg disp n s.view with
    | mk v1 e =>
      rw [hex] at hv1
      cases e with
      | some e => exact ⟨s1, hv1, hc1, hk1, rfl⟩
      | none =>
        simp only
        obtain ⟨s2, hv2, hc2, hk2, hr2⟩ := ih hc1 (fun x hx => by rw [hk1.tags]; exact hw x (by simp [hx]))
          (fun l f hm s3 hc3 hk3 => hinc l f (by simp [hm]) s3 hc3 (hk1.trans hk3)) (n + it.lines.length)
        simp only at hv1
        rw [hv1] at hv2 hr2
        refine ⟨s2, hv2, hc2, hk1.trans hk2, ?_⟩
        rw [hr2]
        cases (execAll cfg disp (numbered (n + it.lines.length) items) v1).2 with
        | some e => rfl
        | none => simp only; congr 1; simp only [List.length_append]; omega

/-- C35: with `followIncludes=False`, a text with include lines is read like the text in which each
of them is an empty line; no file is looked at. -/
theorem C35_include_is_blank (hf : cfg.followIncludes = false) (hc : Clean s)
    (ht : splitLines text = items.flatMap Item.lines) (hw : ∀ it ∈ items, it.WF cfg.version s.tags)
    {blanked : Str} (hb : splitLines blanked = (items.map blankIncl).flatMap Item.lines) (w' : World) (d' : Nat) :
    (readString cfg w disp d text s).1.view = (readString cfg w' disp d' blanked s).1.view ∧
    (readString cfg w disp d text s).2 = (readString cfg w' disp d' blanked s).2 := by
  have key : ∀ (w : World) (d : Nat) (text : Str) (items : List Item), splitLines text = items.flatMap Item.lines →
      (∀ it ∈ items, it.WF cfg.version s.tags) →
      (readString cfg w disp d text s).1.view = (execAll cfg disp (numbered 0 items) s.view).1 ∧
      (readString cfg w disp d text s).2 = (execAll cfg disp (numbered 0 items) s.view).2 := by
    intro w d text items ht hw
    obtain ⟨s1, hv, _, _, hr⟩ := run_noEffect (cfg := cfg) (disp := disp) (inc := readFile cfg w disp d) (clean_reset hc) hw
      (fun l f _ s1 hc1 _ => ⟨s1, handleInclude_ignored hf f s1, rfl, hc1, .refl _⟩) [[]] 0
    unfold readString
    rw [stateMachine_eq, ht, hr]
    have e : s.reset.view = s.view := rfl
    rw [e] at hv ⊢
    cases (execAll cfg disp (numbered 0 items) s.view).2 <;> exact ⟨hv, rfl⟩
  obtain ⟨h1, h2⟩ := key w d text items ht hw
  obtain ⟨h3, h4⟩ := key w' d' blanked (items.map blankIncl) hb (by
    intro it hi
    obtain ⟨it', hi', rfl⟩ := List.mem_map.1 hi
    have := hw it' hi'
    cases it' with
    | incl l f => exact (by decide : SkipLine c!"\n")
    | _ => exact this)
  rw [execAll_blankIncl] at h3 h4
  exact ⟨h1.trans h3.symm, h2.trans h4.symm⟩

example : (readString { version := Version.F34, followIncludes := false } sampleWorld picky 3 c!"ok 1\n%include /d/main\nbad\n" { cmds := [] }).1.view =
    (readString { version := Version.F34, followIncludes := false } ⟨[], fun _ => false, fun _ => .ok []⟩ picky 0 c!"ok 1\n\nbad\n" { cmds := [] }).1.view :=
  (C35_include_is_blank (cfg := { version := Version.F34, followIncludes := false }) rfl (clean_new _)
    (items := [.cmd c!"ok 1\n" [c!"ok", c!"1"], .incl c!"%include /d/main\n" c!"/d/main", .cmd c!"bad\n" [c!"bad"]])
    (by decide +kernel) (wf_of_checks (by decide +kernel)) (by decide +kernel) _ 0).1

/-- An include line inside a section. -/
def SectionInclude (l f : Str) : Prop :=
  firstWord l = some c!"%include" ∧ f ≠ [] ∧ ∃ r, shlexSplit l false = .ok (c!"%include" :: f :: r)

theorem readSection_include {name l f : Str} (h : SectionInclude l f) (rest : List Str) (n : Nat) (s : PState C) :
    readSection cfg inc name (l :: rest) n s =
      match handleInclude cfg inc f s with
      | (s, some e) => (s, .error e)
      | (s, none) => readSection cfg inc name rest (n + 1) s := by
  obtain ⟨hw, hf, r, ha⟩ := h
  have hne : l ≠ [] := by rintro rfl; simp [firstWord, splitWs] at hw
  have hd : (splitWs l).headD [] = c!"%include" := by
    unfold firstWord at hw
    cases hs : splitWs l with
    | nil => simp [hs] at hw
    | cons a b => simp [hs] at hw; simp [hw]
  rw [readSection]
  simp only [hne, false_and, if_false, not_blank_of_firstWord hw, startsWith_percent_of_firstWord hw, hd, ha, if_true,
    List.headD_cons, hf]
  simp
  rfl

/-- The lines that are no include lines. -/
def ownLines (body : List Str) : List Str := body.filter fun l => ! decide (firstWord l = some c!"%include")

theorem readSection_script_ignoring (hf : cfg.followIncludes = false) {name : Str} {s : PState C}
    {t : ScriptType} {k : Nat} {b : ScriptBuf} (hs : s.sec name = some (.script t k b))
    (body : List Str) (hb : ∀ l ∈ body, PlainLine s.tags l ∨ ∃ f, SectionInclude l f) (rest : List Str) (n : Nat) :
    readSection cfg inc name (body ++ rest) n s =
      readSection cfg inc name rest (n + body.length) (s.setSec name (.script t k { b with body := b.body ++ ownLines body })) := by
  induction body generalizing s b n with
  | nil => simp [setSec_self hs, ownLines]
  | cons l ls ih =>
    have en : n + 1 + ls.length = n + (ls.length + 1) := by omega
    rw [List.cons_append]
    rcases hb l (by simp) with h | ⟨f, h⟩
    · have hown : ownLines (l :: ls) = l :: ownLines ls := by
        unfold ownLines
        rw [List.filter_cons_of_pos]
        simp only [Bool.not_eq_true', decide_eq_false_iff_not]
        exact fun e => (h.2 _ e).2.2 rfl
      rw [readSection_plain h]
      have h1 : handleLine name l s = (s.setSec name (.script t k (b.line l)), none) := by simp [handleLine, hs]
      rw [if_neg (by simp [hs, SecObj.allLines]), h1]
      simp only
      have htags : (s.setSec name (.script t k (b.line l))).tags = s.tags := tags_setSec (mem_tags_of_sec hs)
      rw [ih (b := b.line l) (by rw [sec_setSec, if_pos rfl]) (by rw [htags]; exact fun x hx => hb x (by simp [hx]))]
      rw [setSec_setSec, hown]
      simp only [ScriptBuf.line, List.append_assoc, List.singleton_append, List.length_cons, en]
    · have hown : ownLines (l :: ls) = ownLines ls := by
        unfold ownLines
        rw [List.filter_cons_of_neg]
        simp [h.1]
      rw [readSection_include h, handleInclude_ignored hf]
      simp only
      rw [ih hs (fun x hx => hb x (by simp [hx])), hown, List.length_cons, en]

/-- C35 inside a script: with `followIncludes=False`, include lines are no part of the script. -/
theorem C35_include_in_script (hf : cfg.followIncludes = false) (hc : Clean s) {t : ScriptType} {opts : List ScriptOpt}
    {hdr endl : Str} {body : List Str} (ht : splitLines text = hdr :: (body ++ [endl]))
    (hh : HeaderLine hdr t.tag (opts.map ScriptOpt.text)) (ho : .nochroot ∈ opts → t = .post)
    (hb : ∀ l ∈ body, PlainLine s.tags l ∨ ∃ f, SectionInclude l f) (he : EndLine endl)
    (hn : ¬ BlankBody (s.pending t ++ ownLines body)) :
    (readString cfg w disp d text s).2 = none ∧
    (readString cfg w disp d text s).1.scripts = s.scripts ++ [scriptOf t opts 1 (s.pending t ++ ownLines body)] := by
  obtain ⟨k, b, hs, hch⟩ := hc.script t
  have hpend : s.pending t = b.body := by unfold PState.pending; rw [hs]
  have hr := run_script_gen (cfg := cfg) (disp := disp) (inc := readFile cfg w disp d) (s := s.reset) hh rfl hs 0
    (scriptHeader ho 1 b) (body := body) (kept := ownLines body)
    (fun s' ht hs' rest m => readSection_script_ignoring hf hs' body (by rw [ht]; exact hb) rest m) he [[]]
  rw [hpend] at hn ⊢
  rw [finalize_script hn] at hr
  unfold readString
  rw [stateMachine_eq, ht]
  have e : hdr :: (body ++ [endl]) ++ [[]] = hdr :: (body ++ endl :: [[]]) := by simp
  rw [e, hr, run_eof]
  refine ⟨rfl, ?_⟩
  have hchr : (if t = .post then decide (ScriptOpt.nochroot ∉ opts) else b.chroot) = decide (t = .post ∧ ScriptOpt.nochroot ∉ opts) := by
    by_cases ht : t = .post
    · simp [ht]
    · simp [ht, hch ht]
  simp only [Option.toList_some, scriptOf, hchr]
  rfl

example : (readString { version := Version.F34, followIncludes := false } sampleWorld picky 3 c!"%pre\na\n %include /d/main\nb\n%end\n" { cmds := [] }).1.scripts.map (·.script) =
    [c!"a\nb\n"] := by
  rw [(C35_include_in_script (cfg := { version := Version.F34, followIncludes := false }) rfl (clean_new _) (t := .pre) (opts := [])
    (hdr := c!"%pre\n") (endl := c!"%end\n") (body := [c!"a\n", c!" %include /d/main\n", c!"b\n"]) (by decide +kernel) (by decide +kernel) (by simp)
    (by
      intro l hl
      simp only [List.mem_cons, List.not_mem_nil, or_false] at hl
      rcases hl with rfl | rfl | rfl
      · exact .inl (by decide +kernel)
      · exact .inr ⟨c!"/d/main", by decide +kernel, by decide, [], by decide +kernel⟩
      · exact .inl (by decide +kernel))
    (by decide +kernel) (by decide +kernel)).2]
  decide +kernel

/-! ## C36 -/

theorem handleInclude_unreadable_fatal (hf : cfg.followIncludes = true) (hm : cfg.missingIncludeIsFatal = true) {f : Str} {s : PState C}
    {dir : Option Str} (hd : s.currentdir.lookup s.includeDepth = dir) (h : Unreadable w (findInclude w dir f)) (d : Nat) :
    ∃ s', handleInclude cfg (readFile cfg w disp (d + 1)) f s = (s', some cannotOpen) ∧ s'.view = s.view := by
  refine ⟨noteDir w (findInclude w dir f) { s with includeDepth := s.includeDepth + 1 }, ?_, rfl⟩
  rw [handleInclude, if_neg (by simp [hf]), readFile_unreadable hd h]
  simp [hm]

theorem handleInclude_unreadable_skip (hf : cfg.followIncludes = true) (hm : cfg.missingIncludeIsFatal = false) {f : Str} {s : PState C}
    {dir : Option Str} (hd : s.currentdir.lookup s.includeDepth = dir) (h : Unreadable w (findInclude w dir f)) (d : Nat) (hc : Clean s) :
    ∃ s', handleInclude cfg (readFile cfg w disp (d + 1)) f s = (s', none) ∧ s'.view = s.view ∧ Clean s' ∧ Stable s s' := by
  rw [handleInclude, if_neg (by simp [hf]), readFile_unreadable hd h]
  simp only [hm]
  rw [if_pos ⟨rfl, by simp⟩]
  refine ⟨_, rfl, rfl, ⟨hc.state, hc.script, hc.packages, hc.null⟩, rfl, rfl, fun j hj => ?_⟩
  exact (lookup_assocSet _ _ _ _).trans (if_neg (by simp only; omega))

/-- C36, fatal: the first include that cannot be opened stops reading with a `KickstartError`; what
precedes it has been done, what follows has not. -/
theorem C36_fatal (hf : cfg.followIncludes = true) (hm : cfg.missingIncludeIsFatal = true) (hc : Clean s)
    {before after : List Item} {l f : Str} (ht : splitLines text = (before ++ .incl l f :: after).flatMap Item.lines)
    (hw : ∀ it ∈ before, it.WF cfg.version s.tags) (hi : ∀ it ∈ before, ∀ l f, it ≠ .incl l f) (hl : IncludeLine l f)
    (hmiss : Unreadable w (findInclude w (s.currentdir.lookup 0) f))
    (hok : (execAll cfg disp (numbered 0 before) s.view).2 = none) :
    (readString cfg w disp (d + 1) text s).2 = some cannotOpen ∧ cannotOpen.isKickstartError = true ∧
    (readString cfg w disp (d + 1) text s).1.view = (execAll cfg disp (numbered 0 before) s.view).1 := by
  unfold readString
  rw [stateMachine_eq, ht, List.flatMap_append, List.append_assoc]
  obtain ⟨s1, hv, hc1, hk, hr⟩ := run_flat (cfg := cfg) (disp := disp) (inc := readFile cfg w disp (d + 1)) (clean_reset hc) hi hw
    ((.incl l f :: after : List Item).flatMap Item.lines ++ [[]]) 0
  have e : s.reset.view = s.view := rfl
  rw [e] at hv hr
  rw [hr, hok]
  simp only [List.flatMap_cons, Item.lines, List.cons_append, List.nil_append]
  rw [run_include hl]
  obtain ⟨s2, h2, hv2⟩ := handleInclude_unreadable_fatal (disp := disp) hf hm (s := s1) (dir := s.currentdir.lookup 0)
    (by rw [hk.dirs, hk.depth]; rfl) hmiss d
  rw [h2]
  exact ⟨rfl, rfl, hv2.trans hv⟩

example : (readString { version := Version.F34 } sampleWorld picky 2 c!"ok 1\n%include nope\nok 2\n" { cmds := [] }).2 = some cannotOpen :=
  (C36_fatal (cfg := { version := Version.F34 }) rfl rfl (clean_new _) (before := [.cmd c!"ok 1\n" [c!"ok", c!"1"]])
    (after := [.cmd c!"ok 2\n" [c!"ok", c!"2"]]) (l := c!"%include nope\n") (f := c!"nope") (by decide +kernel)
    (wf_of_checks (by decide +kernel)) (by simp) (by decide +kernel) ⟨.ks c!"missing" none, by decide +kernel, rfl⟩ (by decide +kernel)).1

/-- C36, skipped: with `missingIncludeIsFatal=False` a text whose includes can not be opened is read as
if those lines were empty. -/
theorem C36_skipped (hf : cfg.followIncludes = true) (hm : cfg.missingIncludeIsFatal = false) (hc : Clean s)
    (ht : splitLines text = items.flatMap Item.lines) (hw : ∀ it ∈ items, it.WF cfg.version s.tags)
    (hmiss : ∀ l f, .incl l f ∈ items → Unreadable w (findInclude w (s.currentdir.lookup 0) f))
    {blanked : Str} (hb : splitLines blanked = (items.map blankIncl).flatMap Item.lines) :
    (readString cfg w disp (d + 1) text s).1.view = (readString cfg w disp (d + 1) blanked s).1.view ∧
    (readString cfg w disp (d + 1) text s).2 = (readString cfg w disp (d + 1) blanked s).2 ∧
    (readString cfg w disp (d + 1) text s).1.includeDepth = 0 := by
  have key : ∀ (text : Str) (items : List Item), splitLines text = items.flatMap Item.lines →
      (∀ it ∈ items, it.WF cfg.version s.tags) →
      (∀ l f, .incl l f ∈ items → Unreadable w (findInclude w (s.currentdir.lookup 0) f)) →
      (readString cfg w disp (d + 1) text s).1.view = (execAll cfg disp (numbered 0 items) s.view).1 ∧
      (readString cfg w disp (d + 1) text s).2 = (execAll cfg disp (numbered 0 items) s.view).2 ∧
      (readString cfg w disp (d + 1) text s).1.includeDepth = 0 := by
    intro text items ht hw hmiss
    obtain ⟨s1, hv, _, hk, hr⟩ := run_noEffect (cfg := cfg) (disp := disp) (inc := readFile cfg w disp (d + 1)) (clean_reset hc) hw
      (fun l f hi s1 hc1 hk1 => handleInclude_unreadable_skip (disp := disp) hf hm (dir := s.currentdir.lookup 0)
        (by rw [hk1.depth, hk1.dirs _ (Nat.le_refl _)]; rfl) (hmiss l f hi) d hc1) [[]] 0
    unfold readString
    rw [stateMachine_eq, ht, hr]
    have e : s.reset.view = s.view := rfl
    rw [e] at hv ⊢
    cases (execAll cfg disp (numbered 0 items) s.view).2 <;> exact ⟨hv, rfl, hk.depth⟩
  obtain ⟨h1, h2, h5⟩ := key text items ht hw hmiss
  obtain ⟨h3, h4, _⟩ := key blanked (items.map blankIncl) hb
    (by
      intro it hi
      obtain ⟨it', hi', rfl⟩ := List.mem_map.1 hi
      have := hw it' hi'
      cases it' with
      | incl l f => exact (by decide : SkipLine c!"\n")
      | _ => exact this)
    (by
      intro l f hi
      obtain ⟨it', hi', he⟩ := List.mem_map.1 hi
      cases it' <;> simp [blankIncl] at he)
  rw [execAll_blankIncl] at h3 h4
  exact ⟨h1.trans h3.symm, h2.trans h4.symm, h5⟩

example : (readString { version := Version.F34, missingIncludeIsFatal := false } sampleWorld picky 2 c!"ok 1\n%include nope\nbad\n" { cmds := [] }).2 =
    (readString { version := Version.F34, missingIncludeIsFatal := false } sampleWorld picky 2 c!"ok 1\n\nbad\n" { cmds := [] }).2 :=
  (C36_skipped (cfg := { version := Version.F34, missingIncludeIsFatal := false }) rfl rfl (clean_new _)
    (items := [.cmd c!"ok 1\n" [c!"ok", c!"1"], .incl c!"%include nope\n" c!"nope", .cmd c!"bad\n" [c!"bad"]]) (by decide +kernel)
    (wf_of_checks (by decide +kernel))
    (by
      intro l f h
      simp only [List.mem_cons, List.not_mem_nil, or_false, Item.incl.injEq, reduceCtorEq, false_or] at h
      rw [h.2]
      exact ⟨.ks c!"missing" none, by decide +kernel, rfl⟩) (by decide +kernel)).2.1

/-! ## C37 -/

/-- C37, the rule: a path that exists as given is used as given; otherwise, if it exists relative to
the directory `dir` of the including file, that file is used; otherwise the path as given. -/
theorem C37_rule (w : World) (dir f : Str) :
    (w.exist f = true → findInclude w (some dir) f = f) ∧
    (w.exist f = false → w.exist (pathJoin dir f) = true → findInclude w (some dir) f = pathJoin dir f) ∧
    (w.exist f = false → w.exist (pathJoin dir f) = false → findInclude w (some dir) f = f) := by
  refine ⟨fun h => ?_, fun h h' => ?_, fun h h' => ?_⟩ <;> simp [findInclude, *]

/-- C37: whatever the files contain, reading `f` is reading it with every include, at every depth,
looked up by that rule from the directory of the file that contains it (`specRead`): same result and,
apart from the parser's private table of directories, same state. -/
theorem C37_include_resolution (cfg : Cfg) (w : World) (disp : Disp C) (d : Nat) (f : Str) (s : PState C) :
    (readKickstart cfg w disp d f s).2 = (specRead cfg w disp d none f s.reset.dropDirs).2 ∧
    (readKickstart cfg w disp d f s).1.dropDirs = (specRead cfg w disp d none f s.reset.dropDirs).1 := by
  rw [readKickstart_spec]; exact ⟨rfl, rfl⟩

/-- C37 for a text: includes are looked up from the directory of the file this parser read last, if
any. -/
theorem C37_include_resolution_text (cfg : Cfg) (w : World) (disp : Disp C) (d : Nat) (text : Str) (s : PState C) :
    (readString cfg w disp d text s).2 =
      (stateMachine cfg disp (specRead cfg w disp d (s.currentdir.lookup 0)) (splitLines text ++ [[]]) s.reset.dropDirs).2 ∧
    (readString cfg w disp d text s).1.dropDirs =
      (stateMachine cfg disp (specRead cfg w disp d (s.currentdir.lookup 0)) (splitLines text ++ [[]]) s.reset.dropDirs).1 := by
  rw [readString_spec]; exact ⟨rfl, rfl⟩

/-- In the sample, `a` is found next to `/d/main`. -/
example : findInclude sampleWorld (some (dirOf sampleWorld c!"/d/main")) c!"a" = c!"/d/a" ∧
    (readKickstart { version := Version.F34, errorsAreFatal := false } sampleWorld picky 4 c!"/d/main" { cmds := [] }).1.cmds.length = 6 := by
  decide +kernel

/-! ## C38 -/

/-- A set `F` of files each of which includes another file of the set, after any number of well-formed
parts. -/
def Cyclic (w : World) (v : Nat) (tags : List Str) (F : Str → Prop) : Prop :=
  ∀ g, F g → ∃ (text : Str) (before : List Item) (l f : Str) (after : List Str), w.load g = .ok text ∧ splitLines text = before.flatMap Item.lines ++ l :: after ∧
    (∀ it ∈ before, it.WF v tags) ∧ (∀ it ∈ before, ∀ l f, it ≠ .incl l f) ∧ IncludeLine l f ∧
    F (findInclude w (some (dirOf w g)) f)

theorem readFile_cyclic {F : Str → Prop} {tags : List Str} (hF : Cyclic w cfg.version tags F) (hfollow : cfg.followIncludes = true)
    (hm : cfg.missingIncludeIsFatal = true ∨ cfg.errorsAreFatal = false) (d : Nat) (f : Str) {s : PState C}
    (hf : F (resolvePath w s f)) (hc : Clean s) (ht : s.tags = tags) :
    ∃ e, (readFile cfg w disp d f s).2 = some e ∧ (cfg.errorsAreFatal = false → e = .recursion) := by
  induction d generalizing f s with
  | zero => exact ⟨_, rfl, fun _ => rfl⟩
  | succ d ih =>
    obtain ⟨text, before, l, f', after, hl, htext, hw, hni, hline, hF'⟩ := hF _ hf
    rw [readFile]
    simp only [hl]
    rw [stateMachine_eq, htext, List.append_assoc]
    generalize hs0 : noteDir w (resolvePath w s f) s = s0
    have c0 : Clean s0 := by rw [← hs0]; exact ⟨hc.state, hc.script, hc.packages, hc.null⟩
    have t0 : s0.tags = tags := by rw [← hs0]; exact ht
    obtain ⟨s1, hv, hc1, hk, hr⟩ := run_flat (cfg := cfg) (disp := disp) (inc := readFile cfg w disp d) c0 hni
      (by rw [t0]; exact hw) (l :: after ++ [[]]) 0
    rw [hr]
    cases he : (execAll cfg disp (numbered 0 before) s0.view).2 with
    | some e =>
      refine ⟨e, rfl, fun hfat => ?_⟩
      rw [execAll_tolerant hfat] at he
      simp at he
    | none =>
      simp only
      rw [List.cons_append, run_include hline, handleInclude, if_neg (by simp [hfollow])]
      have hd : s1.currentdir.lookup s1.includeDepth = some (dirOf w (resolvePath w s f)) := by
        rw [hk.dirs, hk.depth, ← hs0]
        exact (lookup_assocSet _ _ _ _).trans (if_pos rfl)
      have hp := resolvePath_include w f' hd
      obtain ⟨e, h1, h2⟩ := ih f' (s := { s1 with includeDepth := s1.includeDepth + 1 }) (by rw [hp]; exact hF')
        ⟨hc1.state, hc1.script, hc1.packages, hc1.null⟩ (by show s1.tags = _; rw [hk.tags, t0])
      cases hr2 : readFile cfg w disp d f' { s1 with includeDepth := s1.includeDepth + 1 } with
      | mk s2 o =>
        rw [hr2] at h1
        simp only at h1
        subst h1
        simp only
        rw [if_neg]
        · exact ⟨e, rfl, h2⟩
        · rintro ⟨hk, hmf⟩
          rcases hm with h | h
          · exact hmf h
          · rw [h2 h] at hk; simp [Exc.isKickstartError] at hk

/-- C38: reading a file of a cyclic set fails, whatever the recursion limit `d`. -/
theorem C38_cyclic {F : Str → Prop} (hF : Cyclic w cfg.version s.tags F) (hfollow : cfg.followIncludes = true)
    (hm : cfg.missingIncludeIsFatal = true ∨ cfg.errorsAreFatal = false) (hc : Clean s) {f : Str} (hf : F f) (d : Nat) :
    ∃ e, (readKickstart cfg w disp d f s).2 = some e ∧ (cfg.errorsAreFatal = false → e = .recursion) := by
  refine readFile_cyclic hF hfollow hm d f ?_ (clean_reset hc) rfl
  have hp : resolvePath w s.reset f = f := by unfold resolvePath; split <;> rfl
  rw [hp]; exact hf

/-- Two files that include each other. -/
def cyclicWorld : World where
  cwd := c!"/"
  exist := fun f => f ∈ [c!"/d/a", c!"/d/b"]
  load := fun f =>
    if f = c!"/d/a" then .ok c!"ok 1\n%include b\n"
    else if f = c!"/d/b" then .ok c!"# x\n%include /d/a\nok\n"
    else .error (.ks c!"missing" none)

theorem cyclicWorld_cyclic : Cyclic cyclicWorld Version.F34 standardTags (· ∈ [c!"/d/a", c!"/d/b"]) := by
  intro g hg
  simp only [List.mem_cons, List.not_mem_nil, or_false] at hg
  rcases hg with rfl | rfl
  · exact ⟨_, [.cmd c!"ok 1\n" [c!"ok", c!"1"]], c!"%include b\n", c!"b", [], rfl, by decide +kernel, wf_of_checks (by decide +kernel),
      by simp, by decide +kernel, by decide +kernel⟩
  · exact ⟨_, [.skip c!"# x\n"], c!"%include /d/a\n", c!"/d/a", [c!"ok\n"], rfl, by decide +kernel, wf_of_checks (by decide +kernel),
      by simp, by decide +kernel, by decide +kernel⟩

example (d : Nat) : ∃ e, (readKickstart { version := Version.F34 } cyclicWorld picky d c!"/d/a" { cmds := [] }).2 = some e := by
  obtain ⟨e, h, _⟩ := C38_cyclic (cfg := { version := Version.F34 }) (disp := picky) (s := { cmds := [] }) cyclicWorld_cyclic rfl (.inl rfl)
    (clean_new _) (f := c!"/d/a") (by simp) d
  exact ⟨e, h⟩

/-- Without the condition on the configuration this fails: with `missingIncludeIsFatal=False` an error
of a command in the second round is swallowed by the include and ends the recursion. -/
theorem C38_swallowed :
    let disp : Disp Nat := fun n _ _ c => (c + 1, if c = 3 then some (.parse c!"again" (some n)) else none)
    (readKickstart { version := Version.F34, missingIncludeIsFatal := false } cyclicWorld disp 20 c!"/d/a" { cmds := 0 }).2 = none := by
  decide +kernel

/-! ## C39 -/

/-- The commands of a text without sections. -/
def PlainItem : Item → Prop
  | .skip _ => True
  | .cmd _ _ => True
  | _ => False

theorem run_commands {s : PState C} (hs : s.state = none) {items : List Item} (hw : ∀ it ∈ items, it.WF cfg.version s.tags)
    (hp : ∀ it ∈ items, PlainItem it) (rest : List Str) (n : Nat) :
    ∃ s', s'.view = (execAll cfg disp (numbered n items) s.view).1 ∧ s'.state = none ∧
      run cfg disp inc (items.flatMap Item.lines ++ rest) n s =
        match (execAll cfg disp (numbered n items) s.view).2 with
        | none => run cfg disp inc rest (n + (items.flatMap Item.lines).length) s'
        | some e => (s', some e) := by
  induction items generalizing s n with
  | nil => exact ⟨s, rfl, hs, rfl⟩
  | cons it items ih =>
    have hone : ∃ s', s'.view = (it.exec cfg disp n s.view).1 ∧ s'.state = none ∧ s'.tags = s.tags ∧
      run cfg disp inc (it.lines ++ (items.flatMap Item.lines ++ rest)) n s =
        match (it.exec cfg disp n s.view).2 with
        | none => run cfg disp inc (items.flatMap Item.lines ++ rest) (n + it.lines.length) s'
        | some e => (s', some e) := by
      have hw1 := hw it (by simp)
      have hp1 := hp it (by simp)
      cases it with
      | skip l =>
        refine ⟨specialComment l s, ?_, ?_, ?_, run_skip hw1 _ _ _⟩
        · by_cases h : l.take 10 = c!"#platform="
          · simp [specialComment, hs, Item.exec, PState.view, h]; rfl
          · simp [specialComment, hs, Item.exec, PState.view, h]
        · unfold specialComment; split
          · exact hs
          · split <;> exact hs
        · unfold specialComment; split
          · rfl
          · split <;> rfl
      | cmd l words =>
        have hr := run_command (cfg := cfg) (disp := disp) (inc := inc) hw1 (items.flatMap Item.lines ++ rest) n s hs
        simp only [Item.lines, List.cons_append, List.nil_append, List.length_cons, List.length_nil, Nat.zero_add]
        rw [hr]
        simp only [handleCommand, tryFunc, Item.exec]
        have hv : s.view.cmds = s.cmds := rfl
        rw [hv]
        cases hd : disp (n + 1) words l s.cmds with
        | mk c e =>
          cases e with
          | none => exact ⟨{ s with cmds := c }, rfl, hs, rfl, rfl⟩
          | some e =>
            cases hf : cfg.errorsAreFatal with
            | true => exact ⟨{ s with cmds := c, errorsCount := s.errorsCount + 1 }, rfl, hs, rfl, rfl⟩
            | false =>
              exact ⟨{ s with cmds := c, errorsCount := s.errorsCount + 1, printed := s.printed ++ [e] }, rfl, hs, rfl, rfl⟩
      | _ => exact hp1.elim
    obtain ⟨s1, hv1, hs1, hk1, hr1⟩ := hone
    simp only [List.flatMap_cons, List.append_assoc]
    rw [hr1, numbered, execAll]
    cases hex : it.exec cfg disp n s.view with
    | mk v1 e =>
      rw [hex] at hv1
      cases e with
      | some e => exact ⟨s1, hv1, hs1, rfl⟩
      | none =>
        simp only
        obtain ⟨s2, hv2, hs2, hr2⟩ := ih hs1 (fun x hx => by rw [hk1]; exact hw x (by simp [hx])) (fun x hx => hp x (by simp [hx]))
          (n + it.lines.length)
        simp only at hv1
        rw [hv1] at hv2 hr2
        refine ⟨s2, hv2, hs2, ?_⟩
        rw [hr2]
        cases (execAll cfg disp (numbered (n + it.lines.length) items) v1).2 with
        | some e => rfl
        | none => simp only; congr 1; simp only [List.length_append]; omega

/-- C39: whatever state earlier reads left the parser in (inside a section, at any include depth, after
any exception), reading a text of commands dispatches every one of them as if it were the first
read. -/
theorem C39_commands (s : PState C) (hw : ∀ it ∈ items, it.WF cfg.version s.tags) (hp : ∀ it ∈ items, PlainItem it)
    (ht : splitLines text = items.flatMap Item.lines) :
    (readString cfg w disp d text s).1.view = (execAll cfg disp (numbered 0 items) s.view).1 ∧
    (readString cfg w disp d text s).2 = (execAll cfg disp (numbered 0 items) s.view).2 := by
  obtain ⟨s1, hv, _, hr⟩ := run_commands (cfg := cfg) (disp := disp) (inc := readFile cfg w disp d) (s := s.reset) rfl hw hp [[]] 0
  unfold readString
  rw [stateMachine_eq, ht, hr]
  have e : s.reset.view = s.view := rfl
  rw [e] at hv ⊢
  cases (execAll cfg disp (numbered 0 items) s.view).2 <;> exact ⟨hv, rfl⟩

/-- C39: the result of a read does not depend on the section or the include depth an earlier read
stopped in. -/
theorem C39_reset (s : PState C) (st : Option Str) (k : Nat) (text f : Str) :
    readString cfg w disp d text { s with state := st, includeDepth := k } = readString cfg w disp d text s ∧
    readKickstart cfg w disp d f { s with state := st, includeDepth := k } = readKickstart cfg w disp d f s := ⟨rfl, rfl⟩

/-- A read that fails inside an unclosed section of an included file leaves the parser there; the
next read is not affected. -/
example :
    let w : World := ⟨c!"/", fun _ => true, fun f => if f = c!"m" then .ok c!"%include i\n" else .ok c!"%pre\na\n%post\n"⟩
    let s := (readKickstart { version := Version.F34 } w picky 3 c!"m" { cmds := [] }).1
    s.state = some c!"%pre" ∧ s.includeDepth = 1 ∧
    (readString { version := Version.F34 } w picky 3 c!"ok 1\n" s).1.cmds = [c!"ok", c!"1"] := by
  decide +kernel

/-! ## C32 -/

/-- Script, `%packages` and pass-through sections. -/
def Item.IsSection : Item → Prop
  | .script .. => True
  | .pkgs .. => True
  | .null .. => True
  | _ => False

/-- The tag of a section. -/
def Item.secName : Item → Str
  | .script t .. => t.tag
  | .pkgs .. => c!"%packages"
  | .null name .. => name
  | _ => []

/-- The lines of a section without its closing `%end`. -/
def Item.openLines (it : Item) : List Str := it.lines.dropLast

/-- The header and the body of a section have been read. -/
theorem run_open {s : PState C} (hc : Clean s) {it : Item} (hw : it.WF cfg.version s.tags) (hi : it.IsSection) (n : Nat) :
    ∃ s1 o, s1.sec it.secName = some o ∧ s1.tags = s.tags ∧ s1.includeDepth = s.includeDepth ∧
      (finalize it.secName s1).view = (it.exec cfg disp n s.view).1 ∧ Clean (finalize it.secName s1) ∧
      Keeps s (finalize it.secName s1) ∧ s1.scripts = s.scripts ∧ s1.cmds = s.cmds ∧ s1.nullStrings = s.nullStrings ∧
      ∀ rest, run cfg disp inc (it.openLines ++ rest) n s =
        match readSection cfg inc it.secName rest (n + it.openLines.length) s1 with
        | (s, .error e) => (s, some e)
        | (s, .ok (n, rest)) => run cfg disp inc rest n s := by
  cases it with
  | script t opts hdr body endl =>
    obtain ⟨h1, h2, h3, h5⟩ := hw
    obtain ⟨k, b, hs, hch⟩ := hc.script t
    have hpend : s.view.pending t = b.body := by show s.pending t = _; unfold PState.pending; rw [hs]
    have hh := scriptHeader h2 (n + 1) b
    have hchr : (if t = .post then decide (ScriptOpt.nochroot ∉ opts) else b.chroot) = decide (t = .post ∧ ScriptOpt.nochroot ∉ opts) := by
      by_cases ht : t = .post
      · simp [ht]
      · simp [ht, hch ht]
    rw [hchr] at hh
    generalize hb' : ({ b with
        interp := ((opts.filterMap ScriptOpt.interp?).getLast?).getD c!"/bin/sh"
        lineno := some (n + 1)
        log := (opts.filterMap ScriptOpt.log?).getLast?
        errorOnFail := decide (ScriptOpt.erroronfail ∈ opts)
        chroot := decide (t = .post ∧ ScriptOpt.nochroot ∉ opts) } : ScriptBuf) = b' at hh
    have hbody : b'.body = b.body := by rw [← hb']
    have hb'ch : t ≠ .post → b'.chroot = false := by rw [← hb']; intro ht; simp [ht]
    generalize hs1 : ({ s with
        sections := assocSet t.tag (.script t (k + 1) { b' with body := b'.body ++ body }) s.sections
        warnings := s.warnings ++ scriptWarns cfg.version t
        state := some t.tag } : PState C) = s1
    have hsec : s1.sec t.tag = some (.script t (k + 1) { b' with body := b'.body ++ body }) := by
      rw [← hs1]; exact (lookup_assocSet _ _ _ _).trans (if_pos rfl)
    have hfin : finalize t.tag s1 =
        { s with
          sections := assocSet t.tag (.script t (k + 1) ({ b' with body := b'.body ++ body }.finalize t).2) s.sections
          scripts := s.scripts ++ ({ b' with body := b'.body ++ body }.finalize t).1.toList
          warnings := s.warnings ++ scriptWarns cfg.version t
          state := none } := by
      unfold finalize
      rw [hsec, ← hs1]
      simp only [PState.setSec, assocSet_assocSet]
      cases ({ b' with body := b'.body ++ body } : ScriptBuf).finalize t with
      | mk o bf => cases o <;> simp
    refine ⟨s1, _, hsec, ?_, ?_, ?_, ?_, ?_, ?_, ?_, ?_, ?_⟩
    · rw [← hs1]; exact keys_assocSet (mem_tags_of_sec hs)
    · rw [← hs1]
    · simp only [Item.secName]
      rw [hfin]
      by_cases hbl : BlankBody (b.body ++ body)
      · rw [← hbody] at hbl
        rw [finalize_blank hbl]
        simp only [Item.exec, hpend]
        rw [← hbody, if_pos hbl]
        simp only [PState.view, Option.toList_none, List.append_nil]
        rw [pending_set_script (s := s) rfl]
      · rw [← hbody] at hbl
        rw [finalize_script hbl]
        simp only [Item.exec, hpend]
        rw [← hbody, if_neg hbl]
        simp only [PState.view, Option.toList_some]
        rw [pending_set_script (s := s) rfl]
        simp only [scriptOf, ← hb']
        rfl
    · simp only [Item.secName]
      rw [hfin]
      by_cases hbl : BlankBody (b'.body ++ body)
      · rw [finalize_blank hbl]
        exact clean_set hc rfl rfl (.inl ⟨t, k + 1, _, rfl, rfl, fun ht => by simp [hb'ch ht]⟩)
      · rw [finalize_script hbl]
        exact clean_set hc rfl rfl (.inl ⟨t, k + 1, .fresh t, rfl, rfl, fun ht => by simp [ScriptBuf.fresh, ht]⟩)
    · simp only [Item.secName]
      rw [hfin]; exact keeps_set hs rfl rfl rfl
    · rw [← hs1]
    · rw [← hs1]
    · rw [← hs1]
    · intro rest
      have e : Item.openLines (.script t opts hdr body endl) = hdr :: body := by
        simp [Item.openLines, Item.lines]
        rw [← List.cons_append, List.dropLast_concat]
      rw [e, List.cons_append, run_header h1 _ _ _ hc.state, openSection_known hs]
      have e1 : handleHeader cfg t.tag (n + 1) (t.tag :: opts.map ScriptOpt.text) { s with state := some t.tag } =
          ({ s.setSec t.tag (.script t (k + 1) b') with state := some t.tag, warnings := s.warnings ++ scriptWarns cfg.version t }, none) := by
        have : ({ s with state := some t.tag } : PState C).sec t.tag = some (.script t k b) := hs
        simp only [handleHeader, this, List.tail_cons, hh, scriptWarns]
        split
        · rfl
        · simp [PState.setSec]
      simp only [e1, tryFunc]
      generalize hs2 : ({ s.setSec t.tag (.script t (k + 1) b') with state := some t.tag, warnings := s.warnings ++ scriptWarns cfg.version t } : PState C) = s2
      have hsec2 : s2.sec t.tag = some (.script t (k + 1) b') := by
        rw [← hs2]; exact (lookup_assocSet _ _ _ _).trans (if_pos rfl)
      have htags2 : s2.tags = s.tags := by rw [← hs2]; exact tags_setSec (mem_tags_of_sec hs)
      rw [readSection_script hsec2 body (by rw [htags2]; exact h3)]
      have e2 : s2.setSec t.tag (.script t (k + 1) { b' with body := b'.body ++ body }) = s1 := by
        rw [← hs2, ← hs1]; simp only [PState.setSec, assocSet_assocSet]
      have e3 : n + 1 + body.length = n + (hdr :: body).length := by simp only [List.length_cons]; omega
      simp only [Item.secName]
      rw [e2, e3]
      rfl
  | pkgs args hdr body endl =>
    obtain ⟨h1, h2, h3, h4, h5⟩ := hw
    obtain ⟨k, hs⟩ := hc.packages
    have hh : s.packages.header cfg.version (n + 1) args = ((s.packages.header cfg.version (n + 1) args).1, none) := by
      rw [← h2 (n + 1) s.packages]
    have hf := h4 (s.packages.header cfg.version (n + 1) args).1
    have hf' : feedPackages body (s.packages.header cfg.version (n + 1) args).1 =
        ((feedPackages body (s.packages.header cfg.version (n + 1) args).1).1, none) := by rw [← hf]
    generalize hs1 : ({ s with
          sections := assocSet c!"%packages" (.packages (k + 1)) s.sections
          packages := (feedPackages body (s.packages.header cfg.version (n + 1) args).1).1
          warnings := s.warnings ++ packagesWarnings cfg.version (n + 1) args s.packages
          state := some c!"%packages" } : PState C) = s1
    have hsec : s1.sec c!"%packages" = some (.packages (k + 1)) := by
      rw [← hs1]; exact (lookup_assocSet _ _ _ _).trans (if_pos rfl)
    have hfin : finalize c!"%packages" s1 = { s1 with state := none } := by
      unfold finalize; rw [hsec]
    refine ⟨s1, _, hsec, ?_, ?_, ?_, ?_, ?_, ?_, ?_, ?_, ?_⟩
    · rw [← hs1]; exact keys_assocSet (mem_tags_of_sec hs)
    · rw [← hs1]
    · simp only [Item.secName]
      rw [hfin, ← hs1]
      simp only [PState.view, Item.exec]
      rw [pending_set (s := s) rfl (fun t => by cases t <;> decide)]
    · simp only [Item.secName]
      rw [hfin, ← hs1]
      exact clean_set hc rfl rfl (.inr (.inl ⟨k + 1, rfl, rfl⟩))
    · simp only [Item.secName]
      rw [hfin, ← hs1]
      exact keeps_set hs rfl rfl rfl
    · rw [← hs1]
    · rw [← hs1]
    · rw [← hs1]
    · intro rest
      have e : Item.openLines (.pkgs args hdr body endl) = hdr :: body := by
        simp [Item.openLines, Item.lines]
        rw [← List.cons_append, List.dropLast_concat]
      rw [e, List.cons_append, run_header h1 _ _ _ hc.state, openSection_known hs]
      have e1 : handleHeader cfg c!"%packages" (n + 1) (c!"%packages" :: args) { s with state := some c!"%packages" } =
          ({ s.setSec c!"%packages" (.packages (k + 1)) with state := some c!"%packages", packages := (s.packages.header cfg.version (n + 1) args).1, warnings := s.warnings ++ packagesWarnings cfg.version (n + 1) args s.packages }, none) := by
        have : ({ s with state := some c!"%packages" } : PState C).sec c!"%packages" = some (.packages k) := hs
        simp only [handleHeader, this, List.tail_cons]
        simp only [PState.setSec]
        rw [hh]
      simp only [e1, tryFunc]
      generalize hs2 : ({ s.setSec c!"%packages" (.packages (k + 1)) with state := some c!"%packages", packages := (s.packages.header cfg.version (n + 1) args).1, warnings := s.warnings ++ packagesWarnings cfg.version (n + 1) args s.packages } : PState C) = s2
      have hsec2 : s2.sec c!"%packages" = some (.packages (k + 1)) := by
        rw [← hs2]; exact (lookup_assocSet _ _ _ _).trans (if_pos rfl)
      have htags2 : s2.tags = s.tags := by rw [← hs2]; exact tags_setSec (mem_tags_of_sec hs)
      have hp2 : s2.packages = (s.packages.header cfg.version (n + 1) args).1 := by rw [← hs2]
      rw [readSection_packages hsec2 body (by rw [htags2]; exact h3), hp2, hf']
      have e2 : ({ s2 with packages := (feedPackages body (s.packages.header cfg.version (n + 1) args).1).1 } : PState C) = s1 := by
        rw [← hs2, ← hs1]; rfl
      have e3 : n + 1 + body.length = n + (hdr :: body).length := by simp only [List.length_cons]; omega
      simp only [Item.secName]
      rw [e2, e3]
      rfl
  | null name args hdr body endl =>
    obtain ⟨h1, h2, h3, h5⟩ := hw
    obtain ⟨a, hs⟩ := hc.null name h2.1 h2.2
    generalize hs1 : ({ s with
          sections := assocSet name (.null (name :: args) body) s.sections
          state := some name } : PState C) = s1
    have hsec : s1.sec name = some (.null (name :: args) body) := by
      rw [← hs1]; exact (lookup_assocSet _ _ _ _).trans (if_pos rfl)
    have hfin : finalize name s1 = { s with
        sections := assocSet name (.null [] []) s.sections
        nullStrings := s.nullStrings ++ [nullString (name :: args) body]
        state := none } := by
      unfold finalize
      rw [hsec, ← hs1]
      simp only [PState.setSec, assocSet_assocSet]
    refine ⟨s1, _, hsec, ?_, ?_, ?_, ?_, ?_, ?_, ?_, ?_, ?_⟩
    · rw [← hs1]; exact keys_assocSet (mem_tags_of_sec hs)
    · rw [← hs1]
    · simp only [Item.secName]
      rw [hfin]
      simp only [PState.view, Item.exec]
      rw [pending_set (s := s) rfl h2.2.2]
    · simp only [Item.secName]
      rw [hfin]
      exact clean_set hc rfl rfl (.inr (.inr ⟨[], h2.2, rfl⟩))
    · simp only [Item.secName]
      rw [hfin]
      exact keeps_set hs rfl rfl rfl
    · rw [← hs1]
    · rw [← hs1]
    · rw [← hs1]
    · intro rest
      have e : Item.openLines (.null name args hdr body endl) = hdr :: body := by
        simp [Item.openLines, Item.lines]
        rw [← List.cons_append, List.dropLast_concat]
      rw [e, List.cons_append, run_header h1 _ _ _ hc.state, openSection_known hs]
      have e1 : handleHeader cfg name (n + 1) (name :: args) { s with state := some name } =
          ({ s.setSec name (.null (name :: args) []) with state := some name }, none) := by
        have : ({ s with state := some name } : PState C).sec name = some (.null a []) := hs
        simp only [handleHeader, this]
        rfl
      simp only [e1, tryFunc]
      generalize hs2 : ({ s.setSec name (.null (name :: args) []) with state := some name } : PState C) = s2
      have hsec2 : s2.sec name = some (.null (name :: args) []) := by
        rw [← hs2]; exact (lookup_assocSet _ _ _ _).trans (if_pos rfl)
      have htags2 : s2.tags = s.tags := by rw [← hs2]; exact tags_setSec (mem_tags_of_sec hs)
      rw [readSection_null hsec2 body (by rw [htags2]; exact h3)]
      have e2 : s2.setSec name (.null (name :: args) ([] ++ body)) = s1 := by
        rw [← hs2, ← hs1]; simp only [PState.setSec, assocSet_assocSet, List.nil_append]
      have e3 : n + 1 + body.length = n + (hdr :: body).length := by simp only [List.length_cons]; omega
      simp only [Item.secName]
      rw [e2, e3]
      rfl
  | skip l => exact hi.elim
  | cmd l ws => exact hi.elim
  | incl l f => exact hi.elim

/-- A line that would open a registered section. -/
def TagLine (tags : List Str) (l : Str) : Prop :=
  (∃ w, firstWord l = some w ∧ w ∈ tags) ∧ ∃ tag r, shlexSplit l false = .ok (tag :: r) ∧ tag ∈ tags ∧
    tag ≠ c!"%end" ∧ tag ≠ c!"%include" ∧ tag ≠ c!"%ksappend" ∧ startsWith (lstrip l) c!"%" = true

theorem readSection_tag {name l : Str} {s : PState C} (hl : TagLine s.tags l) (rest : List Str) (n : Nat) :
    readSection cfg inc name (l :: rest) n s =
      if cfg.version ≥ Version.F8 then (s, .error (unclosed (n + 1))) else (finalize name s, .ok (n, l :: rest)) := by
  obtain ⟨⟨x, hx, hxt⟩, tag, r, hs, ht, h1, h2, h3, h4⟩ := hl
  obtain ⟨y, hy⟩ := firstWord_of_startsWith h4
  have hne : l ≠ [] := by rintro rfl; simp [firstWord, splitWs] at hx
  have hd : (splitWs l).headD [] = x := by
    unfold firstWord at hx
    cases hs : splitWs l with
    | nil => simp [hs] at hx
    | cons a b => simp [hs] at hx; simp [hx]
  rw [readSection_cons, secStep]
  simp only [hne, false_and, if_false, not_blank_of_firstWord hy, h4, hd, valid_iff.2 hxt, hs, h1, h2, h3, valid_iff.2 ht,
    if_true, not_true_eq_false, Bool.false_eq_true]
  by_cases hv : cfg.version ≥ Version.F8
  · simp only [if_pos hv]
  · simp only [if_neg hv]

/-- C32, end of file: from F8 on, a section that is not closed makes reading fail with a
`KickstartParseError` that carries the number of the last line; its lines give neither a script nor an
unknown section, and the commands before it have been carried out. -/
theorem C32_unclosed_eof (hv : cfg.version ≥ Version.F8) (hc : Clean s) {before : List Item} {it : Item}
    (ht : splitLines text = before.flatMap Item.lines ++ it.openLines) (hw : ∀ i ∈ before, i.WF cfg.version s.tags)
    (hni : ∀ i ∈ before, ∀ l f, i ≠ .incl l f) (hit : it.WF cfg.version s.tags) (hsec : it.IsSection)
    (hok : (execAll cfg disp (numbered 0 before) s.view).2 = none) :
    let r := readString cfg w disp d text s
    let v := (execAll cfg disp (numbered 0 before) s.view).1
    r.2 = some (unclosed (splitLines text).length) ∧ (unclosed (splitLines text).length).isParseError = true ∧
    r.1.scripts = v.scripts ∧ r.1.cmds = v.cmds ∧ r.1.nullStrings = v.nullStrings := by
  obtain ⟨s1, hv1, hc1, hk, hr⟩ := run_flat (cfg := cfg) (disp := disp) (inc := readFile cfg w disp d) (clean_reset hc) hni hw
    (it.openLines ++ [[]]) 0
  have e : s.reset.view = s.view := rfl
  rw [e] at hv1 hr
  obtain ⟨s2, o, a1, a2, a3, a4, a5, a6, a7, a8, a9, a10⟩ := run_open (cfg := cfg) (disp := disp) (inc := readFile cfg w disp d) hc1
    (by rw [hk.tags]; exact hit) hsec (0 + (before.flatMap Item.lines).length)
  have hd : s2.includeDepth = 0 := by rw [a3, hk.depth]; rfl
  have hread : readString cfg w disp d text s = (s2, some (unclosed (splitLines text).length)) := by
    unfold readString
    rw [stateMachine_eq, ht, List.append_assoc, hr, hok]
    simp only
    rw [a10, readSection_cons, secStep, if_pos ⟨rfl, hd, hv⟩]
    simp only [List.length_append, Nat.zero_add]
  simp only [hread]
  refine ⟨trivial, rfl, ?_, ?_, ?_⟩
  · rw [a7, ← hv1]; rfl
  · rw [a8, ← hv1]; rfl
  · rw [a9, ← hv1]; rfl

/-- C32, next section: from F8 on, a section tag inside an unclosed section makes reading fail with a
`KickstartParseError` that carries the number of that line. -/
theorem C32_unclosed_tag (hv : cfg.version ≥ Version.F8) (hc : Clean s) {before : List Item} {it : Item} {l : Str} {after : List Str}
    (ht : splitLines text = before.flatMap Item.lines ++ (it.openLines ++ l :: after)) (hw : ∀ i ∈ before, i.WF cfg.version s.tags)
    (hni : ∀ i ∈ before, ∀ l f, i ≠ .incl l f) (hit : it.WF cfg.version s.tags) (hsec : it.IsSection) (hl : TagLine s.tags l)
    (hok : (execAll cfg disp (numbered 0 before) s.view).2 = none) :
    let r := readString cfg w disp d text s
    let v := (execAll cfg disp (numbered 0 before) s.view).1
    r.2 = some (unclosed ((before.flatMap Item.lines).length + it.openLines.length + 1)) ∧
    r.1.scripts = v.scripts ∧ r.1.cmds = v.cmds ∧ r.1.nullStrings = v.nullStrings := by
  obtain ⟨s1, hv1, hc1, hk, hr⟩ := run_flat (cfg := cfg) (disp := disp) (inc := readFile cfg w disp d) (clean_reset hc) hni hw
    (it.openLines ++ l :: after ++ [[]]) 0
  have e : s.reset.view = s.view := rfl
  rw [e] at hv1 hr
  obtain ⟨s2, o, a1, a2, a3, a4, a5, a6, a7, a8, a9, a10⟩ := run_open (cfg := cfg) (disp := disp) (inc := readFile cfg w disp d) hc1
    (by rw [hk.tags]; exact hit) hsec (0 + (before.flatMap Item.lines).length)
  have htags : s2.tags = s.tags := by rw [a2, hk.tags]; rfl
  have hread : readString cfg w disp d text s =
      (s2, some (unclosed ((before.flatMap Item.lines).length + it.openLines.length + 1))) := by
    unfold readString
    rw [stateMachine_eq, ht, List.append_assoc, hr, hok]
    simp only
    rw [List.append_assoc, a10, List.cons_append, readSection_tag (by rw [htags]; exact hl), if_pos hv]
    simp only [Nat.zero_add]
  simp only [hread]
  refine ⟨trivial, ?_, ?_, ?_⟩
  · rw [a7, ← hv1]; rfl
  · rw [a8, ← hv1]; rfl
  · rw [a9, ← hv1]; rfl

/-- Number sections that are not closed, the first starting after line `n`. -/
def numberedOpen : Nat → List Item → List (Nat × Item)
  | _, [] => []
  | n, it :: rest => (n, it) :: numberedOpen (n + it.openLines.length) rest

/-- Everything but the pending script lines. -/
def View.settled (v : View C) : View C := { v with pending := fun _ => [] }

theorem exec_section_ok {it : Item} (h : it.IsSection) (n : Nat) (v : View C) : (it.exec cfg disp n v).2 = none := by
  cases it with
  | script t opts hdr body endl => simp only [Item.exec]; split <;> rfl
  | pkgs => rfl
  | null => rfl
  | skip l => exact h.elim
  | cmd l ws => exact h.elim
  | incl l f => exact h.elim

theorem handleLine_empty_view (name : Str) {s : PState C} {o : SecObj} (hs : s.sec name = some o) (hp : ∀ k, o ≠ .packages k) :
    (handleLine name [] s).2 = none ∧ (handleLine name [] s).1.view.settled = s.view.settled := by
  unfold handleLine
  rw [hs]
  cases o with
  | packages k => exact absurd rfl (hp k)
  | script t k b => exact ⟨rfl, rfl⟩
  | null a b => exact ⟨rfl, rfl⟩

theorem run_open_sections (hv : cfg.version < Version.F8) {sections : List Item} (hw : ∀ i ∈ sections, i.WF cfg.version s.tags)
    (hs : ∀ i ∈ sections, i.IsSection) (hl : ∀ i ∈ sections, ∀ l, i.openLines.head? = some l → TagLine s.tags l)
    (hc : Clean s) (hd : s.includeDepth = 0) (n : Nat) :
    ∃ s', run cfg disp inc (sections.flatMap Item.openLines ++ [[]]) n s = (s', none) ∧
      s'.view.settled = (execAll cfg disp (numberedOpen n sections) s.view).1.settled ∧
      (execAll cfg disp (numberedOpen n sections) s.view).2 = none := by
  induction sections generalizing s n with
  | nil => exact ⟨s, rfl, rfl, rfl⟩
  | cons it rest ih =>
    obtain ⟨s1, o, a1, a2, a3, a4, a5, a6, a7, a8, a9, a10⟩ := run_open (cfg := cfg) (disp := disp) (inc := inc) hc
      (hw it (by simp)) (hs it (by simp)) n
    rw [List.flatMap_cons, List.append_assoc, a10, numberedOpen, execAll]
    have hex := exec_section_ok (cfg := cfg) (disp := disp) (hs it (by simp)) n s.view
    cases hexec : it.exec cfg disp n s.view with
    | mk v1 e1 =>
      rw [hexec] at hex a4
      simp only at hex a4
      subst hex
      simp only
      cases rest with
      | nil =>
        rw [numberedOpen, execAll]
        simp only [List.flatMap_nil, List.nil_append]
        rw [readSection_cons, secStep, if_neg (by simp; intro; omega)]
        have hdep : s1.includeDepth = 0 := a3.trans hd
        simp only [hdep, and_self, if_true]
        by_cases hp : ∃ k, (finalize it.secName s1).sec it.secName = some (.packages k)
        · obtain ⟨k, hp⟩ := hp
          rw [if_pos ⟨rfl, by simp [hp, SecObj.allLines]⟩]
          exact ⟨_, rfl, by rw [a4], trivial⟩
        · have hso : ∃ o', (finalize it.secName s1).sec it.secName = some o' := by
            have : it.secName ∈ (finalize it.secName s1).tags := by rw [a6.tags, ← a2]; exact mem_tags_of_sec a1
            rw [← valid_iff] at this
            unfold PState.valid at this
            exact Option.isSome_iff_exists.1 this
          obtain ⟨o', ho'⟩ := hso
          have hall : o'.allLines = true := by
            cases o' with
            | packages k => exact absurd ⟨k, ho'⟩ hp
            | _ => rfl
          rw [if_neg (by simp [ho', hall]), if_neg (by decide)]
          obtain ⟨b1, b2⟩ := handleLine_empty_view it.secName ho' (fun k e => hp ⟨k, by rw [ho', e]⟩)
          cases hln : handleLine it.secName [] (finalize it.secName s1) with
          | mk s3 e3 =>
            rw [hln] at b1 b2
            simp only at b1 b2
            subst b1
            exact ⟨s3, rfl, by rw [b2, a4], trivial⟩
      | cons it2 rest =>
        have hopen : ∃ l ls, it2.openLines = l :: ls := by
          have := hs it2 (by simp)
          cases it2 with
          | script t opts hdr body endl => exact ⟨hdr, body, by simp [Item.openLines, Item.lines]; rw [← List.cons_append, List.dropLast_concat]⟩
          | pkgs args hdr body endl => exact ⟨hdr, body, by simp [Item.openLines, Item.lines]; rw [← List.cons_append, List.dropLast_concat]⟩
          | null name args hdr body endl => exact ⟨hdr, body, by simp [Item.openLines, Item.lines]; rw [← List.cons_append, List.dropLast_concat]⟩
          | skip l => exact this.elim
          | cmd l ws => exact this.elim
          | incl l f => exact this.elim
        obtain ⟨l, ls, hop⟩ := hopen
        have htl : TagLine s1.tags l := by rw [a2]; exact hl it2 (by simp) l (by rw [hop]; rfl)
        rw [List.flatMap_cons, hop, List.append_assoc, List.cons_append, readSection_tag htl, if_neg (by omega)]
        simp only
        have := ih (s := finalize it.secName s1) (fun i hi => by rw [a6.tags]; exact hw i (by simp [hi])) (fun i hi => hs i (by simp [hi]))
          (fun i hi l hh => by rw [a6.tags]; exact hl i (by simp [hi]) l hh) a5 (by rw [a6.depth]; exact hd) (n + it.openLines.length)
        rw [List.flatMap_cons, hop, List.append_assoc, List.cons_append, a4] at this
        exact this

/-- C32, before F8: sections need no `%end`; each ends where the next one starts or at the end of the
file, and has the effect of a closed section with the same lines. -/
theorem C32_before_F8 (hv : cfg.version < Version.F8) (hc : Clean s) {before sections : List Item}
    (ht : splitLines text = before.flatMap Item.lines ++ sections.flatMap Item.openLines)
    (hw : ∀ i ∈ before, i.WF cfg.version s.tags) (hni : ∀ i ∈ before, ∀ l f, i ≠ .incl l f)
    (hws : ∀ i ∈ sections, i.WF cfg.version s.tags) (hs : ∀ i ∈ sections, i.IsSection)
    (hl : ∀ i ∈ sections, ∀ l, i.openLines.head? = some l → TagLine s.tags l)
    (hok : (execAll cfg disp (numbered 0 before) s.view).2 = none) :
    (readString cfg w disp d text s).2 = none ∧
    (readString cfg w disp d text s).1.view.settled =
      (execAll cfg disp (numberedOpen (before.flatMap Item.lines).length sections) (execAll cfg disp (numbered 0 before) s.view).1).1.settled := by
  obtain ⟨s1, hv1, hc1, hk, hr⟩ := run_flat (cfg := cfg) (disp := disp) (inc := readFile cfg w disp d) (clean_reset hc) hni hw
    (sections.flatMap Item.openLines ++ [[]]) 0
  have e : s.reset.view = s.view := rfl
  rw [e] at hv1 hr
  obtain ⟨s2, h1, h2, _⟩ := run_open_sections (cfg := cfg) (disp := disp) (inc := readFile cfg w disp d) (s := s1) hv
    (fun i hi => by rw [hk.tags]; exact hws i hi) hs (fun i hi l hh => by rw [hk.tags]; exact hl i hi l hh) hc1 (by rw [hk.depth]; rfl)
    (0 + (before.flatMap Item.lines).length)
  have hread : readString cfg w disp d text s = (s2, none) := by
    unfold readString
    rw [stateMachine_eq, ht, List.append_assoc, hr, hok]
    exact h1
  rw [hread]
  refine ⟨rfl, ?_⟩
  rw [h2, hv1, Nat.zero_add]

/-- What an unclosed file from F8 on looks like. -/
example : (readString { version := Version.F8 } sampleWorld picky 2 c!"ok 1\n%pre\na\n" { cmds := [] }).2 = some (unclosed 3) :=
  (C32_unclosed_eof (cfg := { version := Version.F8 }) (by decide) (clean_new _) (before := [.cmd c!"ok 1\n" [c!"ok", c!"1"]])
    (it := .script .pre [] c!"%pre\n" [c!"a\n"] c!"%end\n") (by decide +kernel) (wf_of_checks (by decide +kernel)) (by simp)
    (wf_of_check (by decide +kernel)) trivial (by decide +kernel)).1

/-- Decidable form of `TagLine`. -/
theorem tagLine_of_check {tags : List Str} {l w tag : Str} {r : List Str} (h1 : firstWord l = some w) (h2 : w ∈ tags)
    (h3 : shlexSplit l false = .ok (tag :: r))
    (h4 : tag ∈ tags ∧ tag ≠ c!"%end" ∧ tag ≠ c!"%include" ∧ tag ≠ c!"%ksappend" ∧ startsWith (lstrip l) c!"%" = true) :
    TagLine tags l := ⟨⟨w, h1, h2⟩, tag, r, h3, h4⟩

/-- A second header in an unclosed section from F8 on. -/
example : (readString { version := Version.F8 } sampleWorld picky 2 c!"%pre\na\n%post\nb\n%end\n" { cmds := [] }).2 = some (unclosed 3) :=
  (C32_unclosed_tag (cfg := { version := Version.F8 }) (by decide) (clean_new _) (before := [])
    (it := .script .pre [] c!"%pre\n" [c!"a\n"] c!"%end\n") (l := c!"%post\n") (after := [c!"b\n", c!"%end\n"]) (by decide +kernel) (by simp) (by simp)
    (wf_of_check (by decide +kernel)) trivial
    (tagLine_of_check (w := c!"%post") (tag := c!"%post") (r := []) (by decide +kernel) (by decide +kernel) (by decide +kernel) (by decide +kernel))
    (by decide +kernel)).1

/-- The same file before F8: both scripts are there. -/
example : (readString { version := Version.FC6 } sampleWorld picky 2 c!"%pre\na\n%post\nb\n" { cmds := [] }).1.scripts.map (fun x => (x.type, x.script)) =
    [(.pre, c!"a\n"), (.post, c!"b\n")] := by
  have h := C32_before_F8 (w := sampleWorld) (disp := picky) (d := 2) (cfg := { version := Version.FC6 }) (s := { cmds := [] })
    (text := c!"%pre\na\n%post\nb\n") (by decide) (clean_new _) (before := [])
    (sections := [.script .pre [] c!"%pre\n" [c!"a\n"] c!"%end\n", .script .post [] c!"%post\n" [c!"b\n"] c!"%end\n"]) (by decide +kernel) (by simp)
    (by simp) (wf_of_checks (by decide +kernel))
    (by intro i hi; simp only [List.mem_cons, List.not_mem_nil, or_false] at hi; rcases hi with rfl | rfl <;> trivial)
    (by
      intro i hi l hl
      simp only [List.mem_cons, List.not_mem_nil, or_false] at hi
      rcases hi with rfl | rfl
      · simp only [Item.openLines, Item.lines, List.cons_append, List.nil_append, List.dropLast, List.head?_cons, Option.some.injEq] at hl
        subst hl
        exact tagLine_of_check (w := c!"%pre") (tag := c!"%pre") (r := []) (by decide +kernel) (by decide +kernel) (by decide +kernel) (by decide +kernel)
      · simp only [Item.openLines, Item.lines, List.cons_append, List.nil_append, List.dropLast, List.head?_cons, Option.some.injEq] at hl
        subst hl
        exact tagLine_of_check (w := c!"%post") (tag := c!"%post") (r := []) (by decide +kernel) (by decide +kernel) (by decide +kernel) (by decide +kernel))
    (by decide +kernel)
  have h2 := congrArg View.scripts h.2
  have h3 : (readString { version := Version.FC6 } sampleWorld picky 2 c!"%pre\na\n%post\nb\n" { cmds := [] }).1.scripts = _ := h2
  rw [h3]
  decide +kernel

/-! ## C40 -/

/-- C40, strict parsers: the header of an unknown section stops reading with a `KickstartParseError`
for its line; everything before it has been carried out, nothing of the section has. -/
theorem C40_unknown_fatal (hf : cfg.unknownSectionIsFatal = true) (hc : Clean s) {before : List Item} {hdr name : Str} {args after : List Str}
    (ht : splitLines text = before.flatMap Item.lines ++ hdr :: after) (hw : ∀ i ∈ before, i.WF cfg.version s.tags)
    (hni : ∀ i ∈ before, ∀ l f, i ≠ .incl l f) (hh : HeaderLine hdr name args) (hn : name ∉ s.tags)
    (hok : (execAll cfg disp (numbered 0 before) s.view).2 = none) :
    (readString cfg w disp d text s).2 =
      some (.parse (c!"Unknown kickstart section: " ++ name) (some ↑((before.flatMap Item.lines).length + 1))) ∧
    (readString cfg w disp d text s).1.view = (execAll cfg disp (numbered 0 before) s.view).1 := by
  obtain ⟨s1, hv1, hc1, hk, hr⟩ := run_flat (cfg := cfg) (disp := disp) (inc := readFile cfg w disp d) (clean_reset hc) hni hw
    (hdr :: after ++ [[]]) 0
  have e : s.reset.view = s.view := rfl
  rw [e] at hv1 hr
  have hn1 : name ∉ s1.tags := by rw [hk.tags]; exact hn
  have hread : readString cfg w disp d text s = (s1, some (.parse (c!"Unknown kickstart section: " ++ name) (some ↑((before.flatMap Item.lines).length + 1)))) := by
    unfold readString
    rw [stateMachine_eq, ht, List.append_assoc, hr, hok]
    simp only [List.cons_append]
    rw [run_header hh _ _ _ hc1.state, openSection, if_neg (by rw [not_valid_of hn1]; decide), if_pos hf, Nat.zero_add]
    rfl
  rw [hread]
  exact ⟨rfl, hv1⟩

example : (readString { version := Version.F34 } sampleWorld picky 2 c!"ok 1\n%foo\nbody\n%end\n" { cmds := [] }).2 =
    some (.parse c!"Unknown kickstart section: %foo" (some 2)) :=
  (C40_unknown_fatal (cfg := { version := Version.F34 }) rfl (clean_new _) (before := [.cmd c!"ok 1\n" [c!"ok", c!"1"]]) (hdr := c!"%foo\n") (name := c!"%foo")
    (args := []) (after := [c!"body\n", c!"%end\n"]) (by decide +kernel) (wf_of_checks (by decide +kernel)) (by simp) (by decide +kernel) (by decide +kernel)
    (by decide +kernel)).1

/-- Well-formed files for a tolerant parser: a section may also have a name that is not registered;
from there on it is. -/
inductive TolerantWF (v : Nat) : List Str → List Item → Prop
  | nil (tags : List Str) : TolerantWF v tags []
  | known {tags : List Str} {it : Item} {rest : List Item} (hw : it.WF v tags) (hi : ∀ l f, it ≠ .incl l f)
      (hr : TolerantWF v tags rest) : TolerantWF v tags (it :: rest)
  | unknown {tags : List Str} {name : Str} {args : List Str} {hdr : Str} {body : List Str} {endl : Str} {rest : List Item}
      (hh : HeaderLine hdr name args) (hn : name ∉ tags) (hb : ∀ l ∈ body, PlainLine (tags ++ [name]) l) (he : EndLine endl)
      (hr : TolerantWF v (tags ++ [name]) rest) : TolerantWF v tags (.null name args hdr body endl :: rest)

/-- The unknown sections of a file, each at its first occurrence. -/
def unknownNames : List Str → List Item → List Str
  | _, [] => []
  | tags, .null name _ _ _ _ :: rest =>
    if name ∈ tags then unknownNames tags rest else name :: unknownNames (tags ++ [name]) rest
  | tags, _ :: rest => unknownNames tags rest

/-- The warning for an unknown section. -/
def unknownWarning (name : Str) : Warn := .parse (c!"Potentially unknown section seen: " ++ name)

/-- Leave the warnings out. -/
def View.quiet (v : View C) : View C := { v with warnings := [] }

theorem exec_quiet {it : Item} {n : Nat} {v v' : View C} (h : v.quiet = v'.quiet) :
    (it.exec cfg disp n v).1.quiet = (it.exec cfg disp n v').1.quiet ∧ (it.exec cfg disp n v).2 = (it.exec cfg disp n v').2 := by
  obtain ⟨a1, a2, a3, a4, a5, a6, a7, a8, a9⟩ := v
  obtain ⟨b1, b2, b3, b4, b5, b6, b7, b8, b9⟩ := v'
  simp only [View.quiet, View.mk.injEq, true_and] at h
  obtain ⟨rfl, rfl, rfl, rfl, rfl, rfl, rfl, rfl⟩ := h
  cases it with
  | skip l => exact ⟨rfl, rfl⟩
  | cmd l ws =>
    simp only [Item.exec]
    cases disp (n + 1) ws l a1 with
    | mk c o =>
      cases o with
      | none => exact ⟨rfl, rfl⟩
      | some e =>
        simp only
        split <;> exact ⟨rfl, rfl⟩
  | script t opts hdr body endl => simp only [Item.exec]; split <;> exact ⟨rfl, rfl⟩
  | pkgs args hdr body endl => exact ⟨rfl, rfl⟩
  | null name args hdr body endl => exact ⟨rfl, rfl⟩
  | incl l f => exact ⟨rfl, rfl⟩

theorem execAll_quiet {l : List (Nat × Item)} {v v' : View C} (h : v.quiet = v'.quiet) :
    (execAll cfg disp l v).1.quiet = (execAll cfg disp l v').1.quiet ∧ (execAll cfg disp l v).2 = (execAll cfg disp l v').2 := by
  induction l generalizing v v' with
  | nil => exact ⟨h, rfl⟩
  | cons x l ih =>
    obtain ⟨n, it⟩ := x
    simp only [execAll]
    have := exec_quiet (cfg := cfg) (disp := disp) (it := it) (n := n) h
    cases h1 : it.exec cfg disp n v with
    | mk v1 e1 =>
      cases h2 : it.exec cfg disp n v' with
      | mk v2 e2 =>
        rw [h1, h2] at this
        obtain ⟨q, rfl⟩ := this
        cases e1 with
        | none => exact ih q
        | some e => exact ⟨q, rfl⟩

/-- The items before an item that stops reading, and that item. -/
def reached (cfg : Cfg) (disp : Disp C) : List (Nat × Item) → View C → List Item
  | [], _ => []
  | (n, it) :: rest, v =>
    it :: match it.exec cfg disp n v with
      | (v, none) => reached cfg disp rest v
      | (_, some _) => []

theorem reached_quiet {l : List (Nat × Item)} {v v' : View C} (h : v.quiet = v'.quiet) :
    reached cfg disp l v = reached cfg disp l v' := by
  induction l generalizing v v' with
  | nil => rfl
  | cons x l ih =>
    obtain ⟨n, it⟩ := x
    simp only [reached]
    have := exec_quiet (cfg := cfg) (disp := disp) (it := it) (n := n) h
    cases h1 : it.exec cfg disp n v with
    | mk v1 e1 =>
      cases h2 : it.exec cfg disp n v' with
      | mk v2 e2 =>
        rw [h1, h2] at this
        obtain ⟨q, rfl⟩ := this
        cases e1 with
        | none => simp only; rw [ih q]
        | some e => rfl

/-- The warnings in order. -/
theorem exec_warnings_mono (it : Item) (n : Nat) (v : View C) : ∀ x ∈ v.warnings, x ∈ (it.exec cfg disp n v).1.warnings := by
  intro x hx
  cases it with
  | skip l => exact hx
  | cmd l ws =>
    simp only [Item.exec]
    cases disp (n + 1) ws l v.cmds with
    | mk c o =>
      cases o with
      | none => exact hx
      | some e => simp only; split <;> exact hx
  | script t opts hdr body endl => simp only [Item.exec]; split <;> simp [hx]
  | pkgs args hdr body endl => simp [Item.exec, hx]
  | null name args hdr body endl => exact hx
  | incl l f => exact hx

theorem run_unknown {s : PState C} (hc : Clean s) {name : Str} {args : List Str} {hdr : Str} (hf : cfg.unknownSectionIsFatal = false)
    (hh : HeaderLine hdr name args) (hn : name ∉ s.tags) :
    ∃ s0 : PState C, s0.view = { s.view with warnings := s.warnings ++ [unknownWarning name] } ∧ Clean s0 ∧ s0.tags = s.tags ++ [name] ∧
      s0.includeDepth = s.includeDepth ∧ PassThrough name ∧
      ∀ rest n, run cfg disp inc (hdr :: rest) n s = run cfg disp inc (hdr :: rest) n s0 := by
  have hp : PassThrough name := by
    refine ⟨?_, fun t ht => ?_⟩
    · rintro rfl; obtain ⟨k, hk⟩ := hc.packages; exact hn (mem_tags_of_sec hk)
    · subst ht; obtain ⟨k, b, hk, _⟩ := hc.script t; exact hn (mem_tags_of_sec hk)
  generalize hs0 : ({ s with
      sections := assocSet name (.null [] []) s.sections
      warnings := s.warnings ++ [unknownWarning name] } : PState C) = s0
  have hsec : s0.sec name = some (.null [] []) := by
    rw [← hs0]; exact (lookup_assocSet _ _ _ _).trans (if_pos rfl)
  refine ⟨s0, ?_, ?_, ?_, ?_, hp, ?_⟩
  · rw [← hs0]
    simp only [PState.view]
    rw [pending_set (s := s) rfl hp.2]
  · exact clean_set (name := name) (o := .null [] []) hc (by rw [← hs0]) (by rw [← hs0]; exact hc.state) (.inr (.inr ⟨[], hp, rfl⟩))
  · unfold PState.tags; rw [← hs0]; simp only; rw [keys_assocSet_new hn]; simp
  · rw [← hs0]
  · intro rest n
    rw [run_header hh _ _ _ hc.state, run_header hh _ _ _ (by rw [← hs0]; exact hc.state), openSection_known hsec, openSection,
      if_neg (by rw [not_valid_of hn]; decide), if_neg (by rw [hf]; decide)]
    rw [← hs0]
    rfl

theorem run_tolerant (hf : cfg.unknownSectionIsFatal = false) {tags : List Str} (hw : TolerantWF cfg.version tags items) {s : PState C}
    (hc : Clean s) (htags : s.tags = tags) (n : Nat) :
    ∃ s', Clean s' ∧ run cfg disp inc (items.flatMap Item.lines ++ [[]]) n s = (s', (execAll cfg disp (numbered n items) s.view).2) ∧
      s'.view.quiet = (execAll cfg disp (numbered n items) s.view).1.quiet ∧
      (∀ x ∈ s.warnings, x ∈ s'.warnings) ∧
      ∀ name ∈ unknownNames tags (reached cfg disp (numbered n items) s.view), unknownWarning name ∈ s'.warnings := by
  induction hw generalizing s n with
  | nil tags => exact ⟨s, hc, rfl, rfl, fun _ h => h, by simp [numbered, reached, unknownNames]⟩
  | @known tags it rest hwi hi hr ih =>
    subst htags
    obtain ⟨s1, hv1, hc1, hk1, hr1⟩ := run_item (cfg := cfg) (disp := disp) (inc := inc) hc hwi hi (rest.flatMap Item.lines ++ [[]]) n
    rw [List.flatMap_cons, List.append_assoc, hr1, numbered, execAll, reached]
    have hwm : ∀ x ∈ s.warnings, x ∈ s1.warnings := by
      intro x hx
      have := exec_warnings_mono (cfg := cfg) (disp := disp) it n s.view x hx
      rw [← hv1] at this
      exact this
    cases hex : it.exec cfg disp n s.view with
    | mk v1 e =>
      rw [hex] at hv1
      cases e with
      | some e =>
        refine ⟨s1, hc1, rfl, by rw [hv1], hwm, ?_⟩
        intro name hname
        cases it with
        | null nm args hdr body endl => simp [unknownNames, hwi.2.1.1] at hname
        | _ => simp [unknownNames] at hname
      | none =>
        simp only at hv1
        obtain ⟨s2, hc2, h1, h2, h3, h4⟩ := ih (s := s1) hc1 hk1.tags (n + it.lines.length)
        rw [hv1] at h1 h2 h4
        refine ⟨s2, hc2, h1, h2, fun x hx => h3 x (hwm x hx), ?_⟩
        intro name hname
        apply h4
        cases it with
        | null nm args hdr body endl => simpa [unknownNames, hwi.2.1.1] using hname
        | _ => exact hname
  | @unknown tags name args hdr body endl rest hh hn hb he hr ih =>
    subst htags
    obtain ⟨s0, hv0, hc0, ht0, _, hp, hrun⟩ := run_unknown (cfg := cfg) (disp := disp) (inc := inc) hc hf hh hn
    have hwi : (Item.null name args hdr body endl).WF cfg.version s0.tags :=
      ⟨hh, ⟨by rw [ht0]; simp, hp⟩, by rw [ht0]; exact hb, he⟩
    obtain ⟨s1, hv1, hc1, hk1, hr1⟩ := run_item (cfg := cfg) (disp := disp) (inc := inc) hc0 hwi (by simp) (rest.flatMap Item.lines ++ [[]]) n
    have hq : s1.view.quiet = ((Item.null name args hdr body endl).exec cfg disp n s.view).1.quiet := by
      rw [hv1, hv0]; rfl
    have hwarn : s1.warnings = s.warnings ++ [unknownWarning name] := by
      have := congrArg View.warnings hv1
      rw [hv0] at this
      exact this
    obtain ⟨s2, hc2, h1, h2, h3, h4⟩ := ih (s := s1) hc1 (by rw [hk1.tags, ht0]) (n + (Item.null name args hdr body endl).lines.length)
    have hqa := execAll_quiet (cfg := cfg) (disp := disp) (l := numbered (n + (Item.null name args hdr body endl).lines.length) rest) hq
    have hqr := reached_quiet (cfg := cfg) (disp := disp) (l := numbered (n + (Item.null name args hdr body endl).lines.length) rest) hq
    refine ⟨s2, hc2, ?_, ?_, ?_, ?_⟩
    · rw [List.flatMap_cons, List.append_assoc]
      have e : (Item.null name args hdr body endl).lines ++ (rest.flatMap Item.lines ++ [[]]) =
          hdr :: (body ++ [endl] ++ (rest.flatMap Item.lines ++ [[]])) := rfl
      rw [e, hrun, ← e, hr1]
      have e2 : ((Item.null name args hdr body endl).exec cfg disp n s0.view).2 = none := rfl
      rw [e2]
      simp only
      rw [h1, hqa.2]
      rfl
    · rw [h2, hqa.1]; rfl
    · intro x hx; apply h3; rw [hwarn]; simp [hx]
    · intro x hx
      rw [numbered, reached, unknownNames, if_neg hn] at hx
      simp only [Item.exec] at hx
      rcases List.mem_cons.1 hx with rfl | hx
      · apply h3; rw [hwarn]; simp
      · apply h4; rw [hqr]; exact hx

/-- C40, tolerant parsers: unknown sections are read like pass-through sections.  The result is that of
carrying out the parts of the file one after the other, in which a section that is only passed
through changes nothing but the list of texts kept for output (`Item.exec`); there is a warning for
every unknown section that was reached. -/
theorem C40_unknown_kept (hf : cfg.unknownSectionIsFatal = false) (hc : Clean s) (ht : splitLines text = items.flatMap Item.lines)
    (hw : TolerantWF cfg.version s.tags items) :
    (readString cfg w disp d text s).2 = (execAll cfg disp (numbered 0 items) s.view).2 ∧
    (readString cfg w disp d text s).1.view.quiet = (execAll cfg disp (numbered 0 items) s.view).1.quiet ∧
    ∀ name ∈ unknownNames s.tags (reached cfg disp (numbered 0 items) s.view),
      unknownWarning name ∈ (readString cfg w disp d text s).1.warnings := by
  obtain ⟨s', _, h1, h2, _, h4⟩ := run_tolerant (cfg := cfg) (disp := disp) (inc := readFile cfg w disp d) hf hw (clean_reset hc) rfl 0
  unfold readString
  rw [stateMachine_eq, ht, h1]
  exact ⟨rfl, h2, h4⟩

/-- Leave the texts kept for output out as well. -/
def View.core (v : View C) : View C := { v with warnings := [], nullStrings := [] }

theorem exec_core {it : Item} {n : Nat} {v v' : View C} (h : v.core = v'.core) :
    (it.exec cfg disp n v).1.core = (it.exec cfg disp n v').1.core ∧ (it.exec cfg disp n v).2 = (it.exec cfg disp n v').2 := by
  obtain ⟨a1, a2, a3, a4, a5, a6, a7, a8, a9⟩ := v
  obtain ⟨b1, b2, b3, b4, b5, b6, b7, b8, b9⟩ := v'
  simp only [View.core, View.mk.injEq, true_and] at h
  obtain ⟨rfl, rfl, rfl, rfl, rfl, rfl, rfl⟩ := h
  cases it with
  | skip l => exact ⟨rfl, rfl⟩
  | cmd l ws =>
    simp only [Item.exec]
    cases disp (n + 1) ws l a1 with
    | mk c o =>
      cases o with
      | none => exact ⟨rfl, rfl⟩
      | some e =>
        simp only
        split <;> exact ⟨rfl, rfl⟩
  | script t opts hdr body endl => simp only [Item.exec]; split <;> exact ⟨rfl, rfl⟩
  | pkgs args hdr body endl => exact ⟨rfl, rfl⟩
  | null name args hdr body endl => exact ⟨rfl, rfl⟩
  | incl l f => exact ⟨rfl, rfl⟩

/-- Sections that are only passed through. -/
def Item.isNull : Item → Bool
  | .null .. => true
  | _ => false

theorem execAll_core {l : List (Nat × Item)} {v v' : View C} (h : v.core = v'.core) :
    (execAll cfg disp l v).1.core = (execAll cfg disp (l.filter fun x => ! x.2.isNull) v').1.core ∧
    (execAll cfg disp l v).2 = (execAll cfg disp (l.filter fun x => ! x.2.isNull) v').2 := by
  induction l generalizing v v' with
  | nil => exact ⟨h, rfl⟩
  | cons x l ih =>
    obtain ⟨n, it⟩ := x
    cases hn : it.isNull with
    | true =>
      cases it with
      | null name args hdr body endl =>
        rw [List.filter_cons_of_neg (by simp [Item.isNull]), execAll]
        exact ih (v := ((Item.null name args hdr body endl).exec cfg disp n v).1) (h ▸ rfl)
      | _ => cases hn
    | false =>
      rw [List.filter_cons_of_pos (by simp [hn]), execAll, execAll]
      have := exec_core (cfg := cfg) (disp := disp) (it := it) (n := n) h
      cases h1 : it.exec cfg disp n v with
      | mk v1 e1 =>
        cases h2 : it.exec cfg disp n v' with
        | mk v2 e2 =>
          rw [h1, h2] at this
          obtain ⟨q, rfl⟩ := this
          cases e1 with
          | none => exact ih q
          | some e => exact ⟨q, rfl⟩

/-- C40: sections that are only passed through, known or not, have no effect on commands, packages,
scripts, platform or errors: the result is that of the other parts of the file alone (with the
line numbers they have in the file). -/
theorem C40_no_effect (hf : cfg.unknownSectionIsFatal = false) (hc : Clean s) (ht : splitLines text = items.flatMap Item.lines)
    (hw : TolerantWF cfg.version s.tags items) :
    let others := (numbered 0 items).filter fun x => ! x.2.isNull
    (readString cfg w disp d text s).2 = (execAll cfg disp others s.view).2 ∧
    (readString cfg w disp d text s).1.view.core = (execAll cfg disp others s.view).1.core := by
  obtain ⟨h1, h2, _⟩ := C40_unknown_kept (w := w) (disp := disp) (d := d) hf hc ht hw
  have h3 := execAll_core (cfg := cfg) (disp := disp) (l := numbered 0 items) (v := s.view) rfl
  refine ⟨h1.trans h3.2, ?_⟩
  rw [← h3.1]
  exact congrArg (fun v => ({ v with nullStrings := [] } : View C)) h2

/-- What is kept of such a section: the words of its header separated by blanks, the lines of its
body, each (line feed included) followed by another line feed, and `%end`. -/
def passedText (name : Str) (args body : List Str) : Str :=
  joinWith c!" " (name :: args) ++ c!"\n" ++ body.flatMap (· ++ c!"\n") ++ c!"%end"

/-- The texts of the sections that are only passed through. -/
def passedTexts (items : List Item) : List Str :=
  items.filterMap fun it => match it with
    | .null name args _ body _ => some (passedText name args body)
    | _ => none

theorem joinWith_nl (body : List Str) (h : body ≠ []) : joinWith c!"\n" body ++ c!"\n" = body.flatMap (· ++ c!"\n") := by
  induction body with
  | nil => exact absurd rfl h
  | cons l t ih =>
    cases t with
    | nil => simp [joinWith]
    | cons m t => rw [joinWith, List.append_assoc, ih (by simp)]; simp

theorem nullString_eq {name : Str} {args body : List Str} (h : ∀ l ∈ body, l ≠ []) : nullString (name :: args) body = passedText name args body := by
  unfold nullString passedText
  cases body with
  | nil => simp [joinWith]
  | cons l t =>
    have hl := h l (by simp)
    have hne : joinWith c!"\n" (l :: t) ≠ [] := by cases t <;> simp [joinWith, hl]
    simp only
    rw [if_pos hne, ← joinWith_nl (l :: t) (by simp)]
    simp

/-- Bodies consist of lines, which are not empty. -/
def BodyLines (it : Item) : Prop := ∀ name args hdr body endl, it = .null name args hdr body endl → ∀ l ∈ body, l ≠ []

theorem bodyLines_wf {v : Nat} {tags : List Str} {it : Item} (h : it.WF v tags) : BodyLines it := by
  rintro name args hdr body endl rfl l hl
  exact (h.2.2.1 l hl).1

theorem bodyLines_tolerant {v : Nat} {tags : List Str} {items : List Item} (h : TolerantWF v tags items) : ∀ it ∈ items, BodyLines it := by
  induction h with
  | nil => simp
  | known hw _ _ ih =>
    intro it hit
    rcases List.mem_cons.1 hit with rfl | hit
    · exact bodyLines_wf hw
    · exact ih it hit
  | unknown _ _ hb _ _ ih =>
    intro it hit
    rcases List.mem_cons.1 hit with rfl | hit
    · intro name args hdr body endl e l hl
      cases e
      exact (hb l hl).1
    · exact ih it hit

theorem exec_nullStrings {it : Item} (hb : BodyLines it) (n : Nat) (v : View C) :
    (it.exec cfg disp n v).1.nullStrings = v.nullStrings ++ passedTexts [it] := by
  cases it with
  | skip l => simp [Item.exec, passedTexts]
  | cmd l ws =>
    simp only [Item.exec]
    cases disp (n + 1) ws l v.cmds with
    | mk c o =>
      cases o with
      | none => simp [passedTexts]
      | some e => simp only; split <;> simp [passedTexts]
  | script t opts hdr body endl => simp only [Item.exec]; split <;> simp [passedTexts]
  | pkgs args hdr body endl => simp [Item.exec, passedTexts]
  | null name args hdr body endl => simp only [Item.exec]; rw [nullString_eq (hb _ _ _ _ _ rfl)]; rfl
  | incl l f => simp [Item.exec, passedTexts]

theorem execAll_nullStrings {items : List Item} (hb : ∀ it ∈ items, BodyLines it) (n : Nat) {v : View C} (h : (execAll cfg disp (numbered n items) v).2 = none) :
    (execAll cfg disp (numbered n items) v).1.nullStrings = v.nullStrings ++ passedTexts items := by
  induction items generalizing n v with
  | nil => simp [numbered, execAll, passedTexts]
  | cons it items ih =>
    rw [numbered, execAll] at h ⊢
    have := exec_nullStrings (cfg := cfg) (disp := disp) (hb it (by simp)) n v
    cases h1 : it.exec cfg disp n v with
    | mk v1 e1 =>
      rw [h1] at h this
      cases e1 with
      | some e => cases h
      | none =>
        simp only at h this ⊢
        rw [ih (fun x hx => hb x (by simp [hx])) _ h, this, List.append_assoc]
        congr 1
        unfold passedTexts
        rw [← List.filterMap_append]
        rfl

/-- C40: every such section is kept for output, in the order of the file. -/
theorem C40_kept_for_output (hf : cfg.unknownSectionIsFatal = false) (hc : Clean s) (ht : splitLines text = items.flatMap Item.lines)
    (hw : TolerantWF cfg.version s.tags items) (hok : (readString cfg w disp d text s).2 = none) :
    (readString cfg w disp d text s).1.nullStrings = s.nullStrings ++ passedTexts items := by
  obtain ⟨h1, h2, _⟩ := C40_unknown_kept (w := w) (disp := disp) (d := d) hf hc ht hw
  have h3 : (readString cfg w disp d text s).1.nullStrings = (execAll cfg disp (numbered 0 items) s.view).1.nullStrings :=
    congrArg View.nullStrings h2
  rw [h3, execAll_nullStrings (bodyLines_tolerant hw) 0 (by rw [← h1]; exact hok)]
  rfl

/-- An unknown section twice, around a command. -/
def tolerantSample : List Item :=
  [.null c!"%foo" [c!"x"] c!"%foo x\n" [c!"bad\n"] c!"%end\n", .cmd c!"ok 1\n" [c!"ok", c!"1"],
   .null c!"%foo" [] c!"%foo\n" [] c!"%end\n"]

theorem tolerantSample_wf : TolerantWF Version.F34 (({ cmds := ([] : List Str) } : PState (List Str)).tags) tolerantSample :=
  .unknown (by decide +kernel) (by decide +kernel) (by decide +kernel) (by decide +kernel)
    (.known (wf_of_check (by decide +kernel)) (by simp) (.known (wf_of_check (by decide +kernel)) (by simp) (.nil _)))

example : (readString { version := Version.F34, unknownSectionIsFatal := false } sampleWorld picky 2
      c!"%foo x\nbad\n%end\nok 1\n%foo\n%end\n" { cmds := [] }).1.nullStrings = [c!"%foo x\nbad\n\n%end", c!"%foo\n%end"] :=
  C40_kept_for_output (cfg := { version := Version.F34, unknownSectionIsFatal := false }) rfl (clean_new _) (items := tolerantSample)
    (by decide +kernel) tolerantSample_wf (by decide +kernel)

example : unknownWarning c!"%foo" ∈ (readString { version := Version.F34, unknownSectionIsFatal := false } sampleWorld picky 2
      c!"%foo x\nbad\n%end\nok 1\n%foo\n%end\n" { cmds := [] }).1.warnings :=
  (C40_unknown_kept (cfg := { version := Version.F34, unknownSectionIsFatal := false }) rfl (clean_new _) (items := tolerantSample)
    (by decide +kernel) tolerantSample_wf).2.2 c!"%foo" (by decide +kernel)

example : (readString { version := Version.F34, unknownSectionIsFatal := false } sampleWorld picky 2
      c!"%foo x\nbad\n%end\nok 1\n%foo\n%end\n" { cmds := [] }).1.view.core =
    (execAll { version := Version.F34, unknownSectionIsFatal := false } picky [(3, .cmd c!"ok 1\n" [c!"ok", c!"1"])]
      ({ cmds := [] } : PState (List Str)).view).1.core :=
  (C40_no_effect (cfg := { version := Version.F34, unknownSectionIsFatal := false }) rfl (clean_new _) (items := tolerantSample)
    (by decide +kernel) tolerantSample_wf).2

end Ks
