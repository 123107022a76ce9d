import Verif.Document
/-!
# C24, C25, C27, C28, C30, C31, C33, C34: what reading a file does

The theorems are about every text whose lines are a sequence of well-formed parts (`IsDoc`): blank
lines, comments, commands, closed script sections, `%packages`, `%addon` and `%anaconda`
sections, in any number and order.
-/
namespace Ks
variable {C : Type}

/-- `text` consists of the given parts, none of them an include. -/
structure IsDoc (v : Nat) (tags : List Str) (text : Str) (items : List Item) : Prop where
  lines : splitLines text = items.flatMap Item.lines
  noIncl : ∀ it ∈ items, ∀ l f, it ≠ .incl l f
  wf : ∀ it ∈ items, it.WF v tags

/-- The same, as something to compute. -/
def docCheck (v : Nat) (tags : List Str) (text : Str) (items : List Item) : Bool :=
  decide (splitLines text = items.flatMap Item.lines) &&
  items.all (fun it => match it with | .incl _ _ => false | _ => true) && items.all (Item.check v tags)

theorem isDoc_of_check {v : Nat} {tags : List Str} {text : Str} {items : List Item} (h : docCheck v tags text items = true) :
    IsDoc v tags text items := by
  simp only [docCheck, Bool.and_eq_true, decide_eq_true_eq] at h
  refine ⟨h.1.1, fun it hi l f e => ?_, wf_of_checks h.2⟩
  have := List.all_eq_true.1 h.1.2 it hi
  rw [e] at this
  simp at this

/-- The tags of the sections a new parser knows. -/
def standardTags : List Str := setupSections.map Prod.fst

/-- A text with every kind of part, used to show that hypotheses can be met. -/
def sampleItems : List Item :=
  [ .skip c!"#platform=x86\n", .cmd c!"lang en_US # comment\n" [c!"lang", c!"en_US"],
    .script .pre [] c!"%pre\n" [c!"\n", c!"# note\n", c!"  %foo bar\n"] c!"%end\n",
    .cmd c!"part / --size=\"1 2\"\n" [c!"part", c!"/", c!"--size=1 2"],
    .pkgs [c!"--nocore"] c!"%packages --nocore\n" [c!"a # b\n", c!"\n", c!"@core --optional\n", c!"-b\n"] c!"%end\n",
    .script .post [.log c!"/l", .nochroot, .interpreter c!"/x", .interpreter c!"/y", .erroronfail]
      c!"%post --log=/l --nochroot --interpreter=/x --interpreter=/y --erroronfail\n" [c!"z\n"] c!"%end\n",
    .null c!"%addon" [c!"org"] c!"%addon org\n" [c!"q\n"] c!"%end\n",
    .script .post [] c!"%post\n" [c!"w\n"] c!"%end\n",
    .cmd c!"reboot" [c!"reboot"] ]

def sampleText : Str := (sampleItems.flatMap Item.lines).flatten

theorem sample_isDoc : IsDoc Version.F34 standardTags sampleText sampleItems :=
  isDoc_of_check (by decide +kernel)

/-- The same text in a parser that was just created. -/
theorem sample_isDoc_new (c : C) : IsDoc Version.F34 ({ cmds := c } : PState C).tags sampleText sampleItems := sample_isDoc

variable {cfg : Cfg} {w : World} {disp : Disp C} {d : Nat} {text : Str} {s : PState C} {items : List Item}

/-! ## C24, C25 -/

/-- The text between header and `%end`. -/
def Item.scriptText : Item → Option Str
  | .script _ _ _ body _ => some body.flatten
  | _ => none

/-- The script of a numbered part: its line number is that of the header. -/
def scriptAt : Nat × Item → Option Script
  | (n, .script t opts _ body _) => some (scriptOf t opts (n + 1) body)
  | _ => none

/-- The scripts of numbered parts when the lines `pend` of blank sections are pending: a section that is
blank together with the pending lines of its kind gives no script and leaves all those lines
pending; otherwise the script's text starts with the pending lines. -/
def scriptsFrom (pend : ScriptType → List Str) : List (Nat × Item) → List Script
  | [] => []
  | (n, .script t opts _ body _) :: rest =>
    if BlankBody (pend t ++ body) then scriptsFrom (fun t' => if t' = t then pend t ++ body else pend t') rest
    else scriptOf t opts (n + 1) (pend t ++ body) :: scriptsFrom (fun t' => if t' = t then [] else pend t') rest
  | _ :: rest => scriptsFrom pend rest

theorem execAll_scripts (cfg : Cfg) (disp : Disp C) (l : List (Nat × Item)) (v : View C) (h : (execAll cfg disp l v).2 = none) :
    (execAll cfg disp l v).1.scripts = v.scripts ++ scriptsFrom v.pending l := by
  induction l generalizing v with
  | nil => simp [execAll, scriptsFrom]
  | cons x t ih =>
    obtain ⟨n, it⟩ := x
    rw [execAll] at h ⊢
    cases it with
    | cmd l ws =>
      simp only [Item.exec] at h ⊢
      simp only [scriptsFrom]
      cases hd : disp (n + 1) ws l v.cmds with
      | mk c e =>
        rw [hd] at h
        cases e with
        | none => exact ih _ h
        | some e =>
          simp only at h ⊢
          cases hf : cfg.errorsAreFatal <;> rw [hf] at h
          · exact ih _ h
          · simp at h
    | script t opts hdr body endl =>
      simp only [Item.exec, scriptsFrom] at h ⊢
      by_cases hb : BlankBody (v.pending t ++ body)
      · simp only [if_pos hb] at h ⊢
        exact ih _ h
      · simp only [if_neg hb] at h ⊢
        rw [ih _ h]
        simp
    | _ => exact ih _ h

/-- No script section is blank. -/
def NoBlank (items : List Item) : Prop := ∀ t opts hdr body endl, .script t opts hdr body endl ∈ items → ¬ BlankBody body

def noBlankCheck (items : List Item) : Bool :=
  items.all fun it => match it with | .script _ _ _ body _ => decide (¬ BlankBody body) | _ => true

theorem noBlank_of_check {items : List Item} (h : noBlankCheck items = true) : NoBlank items := by
  intro t opts hdr body endl hm
  simpa using List.all_eq_true.1 h _ hm

theorem scriptsFrom_noBlank {items : List Item} (hn : NoBlank items) (n : Nat) (pend : ScriptType → List Str) (hp : ∀ t, pend t = []) :
    scriptsFrom pend (numbered n items) = (numbered n items).filterMap scriptAt := by
  induction items generalizing n pend with
  | nil => rfl
  | cons it t ih =>
    have hn' : NoBlank t := fun t' o h b e hm => hn t' o h b e (by simp [hm])
    rw [numbered, List.filterMap_cons]
    cases it with
    | script t opts hdr body endl =>
      simp only [scriptsFrom, scriptAt, hp, List.nil_append]
      rw [if_neg (hn t opts hdr body endl (by simp)), ih hn' _ _ (fun t' => by split <;> first | rfl | exact hp t')]
    | _ => exact ih hn' _ _ hp

theorem numbered_scriptText (n : Nat) (items : List Item) :
    ((numbered n items).filterMap scriptAt).map (·.script) = items.filterMap Item.scriptText := by
  induction items generalizing n with
  | nil => rfl
  | cons it t ih => rw [numbered, List.filterMap_cons, List.filterMap_cons]; cases it <;> simp [scriptAt, Item.scriptText, scriptOf, ih]

/-- C27: blank script sections produce no script; their lines are kept by the parser and become the
start of the next script of the same kind.  This is the complete account of the scripts a text gives,
also across reads (`s.pending`). -/
theorem C27_blank_scripts (hc : Clean s) (hd : IsDoc cfg.version s.tags text items)
    (hok : (readString cfg w disp d text s).2 = none) :
    (readString cfg w disp d text s).1.scripts = s.scripts ++ scriptsFrom s.pending (numbered 0 items) := by
  obtain ⟨hv, he, _⟩ := readString_flat (cfg := cfg) (w := w) (disp := disp) (d := d) hc hd.lines hd.noIncl hd.wf
  rw [he] at hok
  have h := execAll_scripts cfg disp (numbered 0 items) s.view hok
  rw [← hv] at h
  exact h

/-- C25: the scripts are exactly those described by the headers and bodies of the sections: kind,
options with their defaults, line number of the header. -/
theorem C25_script_attributes (hc : Clean s) (hp : ∀ t, s.pending t = []) (hd : IsDoc cfg.version s.tags text items)
    (hn : NoBlank items) (hok : (readString cfg w disp d text s).2 = none) :
    (readString cfg w disp d text s).1.scripts = s.scripts ++ (numbered 0 items).filterMap scriptAt := by
  rw [C27_blank_scripts hc hd hok, scriptsFrom_noBlank hn 0 _ hp]

/-- C24: reading a text appends, in order, one script per script section, and the script's text is
the concatenation of the lines between the header and `%end`, whatever they are. -/
theorem C24_scripts_verbatim (hc : Clean s) (hp : ∀ t, s.pending t = []) (hd : IsDoc cfg.version s.tags text items)
    (hn : NoBlank items) (hok : (readString cfg w disp d text s).2 = none) :
    (readString cfg w disp d text s).1.scripts.map (·.script) = s.scripts.map (·.script) ++ items.filterMap Item.scriptText := by
  rw [C25_script_attributes hc hp hd hn hok, List.map_append, numbered_scriptText]

theorem pending_new (c : C) (t : ScriptType) : ({ cmds := c } : PState C).pending t = [] := by cases t <;> rfl

/-- C27, two sections: a blank section followed, after parts that are no scripts of that kind, by a
script of that kind. -/
theorem C27_leak (hc : Clean s) (hp : ∀ t, s.pending t = []) {t : ScriptType} {opts opts' : List ScriptOpt} {hdr hdr' endl endl' : Str}
    {blank body : List Str} {mid : List Item}
    (hd : IsDoc cfg.version s.tags text (.script t opts hdr blank endl :: mid ++ [.script t opts' hdr' body endl']))
    (hb : BlankBody blank) (hb' : ¬ BlankBody body) (hmid : ∀ o h b e, .script t o h b e ∉ mid) (hn : NoBlank mid)
    (hok : (readString cfg w disp d text s).2 = none) :
    ((readString cfg w disp d text s).1.scripts.map (·.script)) =
      s.scripts.map (·.script) ++ mid.filterMap Item.scriptText ++ [blank.flatten ++ body.flatten] := by
  rw [C27_blank_scripts hc hd hok]
  have gen : ∀ (mid : List Item), (∀ o h b e, .script t o h b e ∉ mid) → NoBlank mid → ∀ (n : Nat) (pend : ScriptType → List Str),
      pend t = blank → (∀ t', t' ≠ t → pend t' = []) →
      (scriptsFrom pend (numbered n (mid ++ [.script t opts' hdr' body endl']))).map (·.script) =
        mid.filterMap Item.scriptText ++ [blank.flatten ++ body.flatten] := by
    intro mid
    induction mid with
    | nil =>
      intro _ _ n pend h1 _
      have : ¬ BlankBody (pend t ++ body) := fun h => hb' fun l hl => h l (by simp [hl])
      simp only [List.nil_append, numbered, scriptsFrom]
      rw [if_neg this]
      simp [scriptOf, h1]
    | cons it mid ih =>
      intro hm hn n pend h1 h2
      have hm' : ∀ o h b e, .script t o h b e ∉ mid := fun o h b e hx => hm o h b e (by simp [hx])
      have hn' : NoBlank mid := fun t' o h b e hx => hn t' o h b e (by simp [hx])
      rw [List.cons_append, numbered, List.filterMap_cons]
      cases it with
      | script t' o h b e =>
        have hne : t' ≠ t := by rintro rfl; exact hm o h b e (by simp)
        simp only [scriptsFrom, h2 t' hne, List.nil_append]
        rw [if_neg (hn t' o h b e (by simp))]
        simp only [Item.scriptText, List.map_cons, List.cons_append]
        rw [ih hm' hn' _ _ (by rw [if_neg (Ne.symm hne)]; exact h1) (fun t'' h => by split <;> first | rfl | exact h2 t'' h)]
        rfl
      | _ => exact ih hm' hn' _ _ h1 h2
  rw [List.cons_append, numbered, scriptsFrom, hp t, List.nil_append, if_pos hb, List.map_append,
    gen mid hmid hn _ _ (by simp) (fun t' h => by simp [h, hp t']), List.append_assoc]

example : (readString { version := Version.F34 } ⟨[], fun _ => false, fun _ => .ok []⟩ (fun _ _ _ c => (c, none)) 1
      c!"%post

 
%end
%pre
a
%end
%post --erroronfail
b
%end
" ({ cmds := () } : PState Unit)).1.scripts.map (·.script) =
    [c!"a
", c!"
 
b
"] := by
  have hd : IsDoc Version.F34 ({ cmds := () } : PState Unit).tags c!"%post

 
%end
%pre
a
%end
%post --erroronfail
b
%end
"
      (.script .post [] c!"%post
" [c!"
", c!" 
"] c!"%end
" :: [.script .pre [] c!"%pre
" [c!"a
"] c!"%end
"] ++
        [.script .post [.erroronfail] c!"%post --erroronfail
" [c!"b
"] c!"%end
"]) := isDoc_of_check (by decide +kernel)
  rw [C27_leak (cfg := { version := Version.F34 }) (clean_new ()) (pending_new ()) hd (by decide) (by decide) (by simp)
    (noBlank_of_check (by decide +kernel)) (by decide +kernel)]
  rfl

theorem numbered_spec {n : Nat} {items : List Item} {m : Nat} {it : Item} (h : (m, it) ∈ numbered n items) :
    n ≤ m ∧ it ∈ items ∧ it.lines <+: (items.flatMap Item.lines).drop (m - n) := by
  induction items generalizing n with
  | nil => simp [numbered] at h
  | cons x t ih =>
    rw [numbered, List.mem_cons] at h
    rcases h with h | h
    · cases h
      refine ⟨Nat.le_refl _, by simp, ?_⟩
      simp only [Nat.sub_self, List.drop_zero, List.flatMap_cons]
      exact ⟨_, rfl⟩
    · obtain ⟨h1, h2, h3⟩ := ih h
      refine ⟨by omega, by simp [h2], ?_⟩
      rw [List.flatMap_cons, List.drop_append]
      have : m - n - x.lines.length = m - (n + x.lines.length) := by omega
      rw [this, List.drop_eq_nil_of_le (by omega)]
      exact h3

/-- C25: one script spelled out.  `lineno` is the number of its header line in the text and nothing
depends on other sections. -/
theorem C25_script_of_section (hc : Clean s) (hp : ∀ t, s.pending t = []) (hd : IsDoc cfg.version s.tags text items) (hn : NoBlank items)
    (hok : (readString cfg w disp d text s).2 = none) (sc : Script)
    (h : sc ∈ (readString cfg w disp d text s).1.scripts) (hnew : sc ∉ s.scripts) :
    ∃ (t : ScriptType) (opts : List ScriptOpt) (hdr : Str) (body : List Str) (endl : Str) (n : Nat),
      .script t opts hdr body endl ∈ items ∧ (splitLines text)[n]? = some hdr ∧ sc.lineno = some (n + 1) ∧
      sc.type = t ∧ sc.script = body.flatten ∧
      sc.interp = ((opts.filterMap ScriptOpt.interp?).getLast?).getD c!"/bin/sh" ∧
      sc.logfile = (opts.filterMap ScriptOpt.log?).getLast? ∧
      (sc.errorOnFail = true ↔ .erroronfail ∈ opts) ∧
      (sc.inChroot = true ↔ t = .post ∧ .nochroot ∉ opts) := by
  rw [C25_script_attributes hc hp hd hn hok, List.mem_append] at h
  rcases h with h | h
  · exact absurd h hnew
  · obtain ⟨⟨n, it⟩, hm, hs⟩ := List.mem_filterMap.1 h
    obtain ⟨_, hi, hp⟩ := numbered_spec hm
    cases it <;> simp only [scriptAt, Option.some.injEq, reduceCtorEq] at hs
    rename_i t opts hdr body endl
    refine ⟨t, opts, hdr, body, endl, n, hi, ?_, ?_, ?_, ?_, ?_, ?_, ?_, ?_⟩
    · rw [hd.lines]
      obtain ⟨r, hr⟩ := hp
      have := congrArg List.head? hr
      rw [List.head?_drop] at this
      simpa [Item.lines] using this.symm
    all_goals (rw [← hs]; simp [scriptOf])

example : (readString { version := Version.F34 } ⟨[], fun _ => false, fun _ => .ok []⟩ (fun _ _ _ c => (c, none)) 1 sampleText
      ({ cmds := () } : PState Unit)).1.scripts =
    [ { script := c!"\n# note\n  %foo bar\n", lineno := some 3, type := .pre },
      { script := c!"z\n", interp := c!"/y", lineno := some 15, logfile := some c!"/l", errorOnFail := true, type := .post },
      { script := c!"w\n", inChroot := true, lineno := some 21, type := .post } ] := by
  rw [C25_script_attributes (cfg := { version := Version.F34 }) (clean_new ()) (pending_new ()) (sample_isDoc_new ())
    (noBlank_of_check (by decide +kernel)) (by decide +kernel)]
  decide +kernel

/-! ## C28, C30, C31, C33 -/

/-- A call of the dispatcher: line number, words, the line. -/
structure Call where
  lineno : Nat
  words : List Str
  line : Str
  deriving DecidableEq, Repr

/-- The call a numbered part makes. -/
def callAt : Nat × Item → Option Call
  | (n, .cmd l words) => some ⟨n + 1, words, l⟩
  | _ => none

/-- The dispatcher, also recording its calls. -/
def traced (disp : Disp C) : Disp (List Call × C) :=
  fun n ws l c => ((c.1 ++ [⟨n, ws, l⟩], (disp n ws l c.2).1), (disp n ws l c.2).2)

/-- The exceptions of a sequence of calls, each made in the state the calls before it left. -/
def failures (disp : Disp C) : List Call → C → List Exc
  | [], _ => []
  | k :: t, c => (disp k.lineno k.words k.line c).2.toList ++ failures disp t (disp k.lineno k.words k.line c).1

/-- The state after a sequence of calls. -/
def afterCalls (disp : Disp C) (l : List Call) (c : C) : C := l.foldl (fun c k => (disp k.lineno k.words k.line c).1) c

theorem exec_cmds (cfg : Cfg) (disp : Disp C) (n : Nat) (v : View C) (it : Item) :
    (it.exec cfg disp n v).1.cmds = afterCalls disp (callAt (n, it)).toList v.cmds := by
  cases it with
  | cmd l ws =>
    simp only [Item.exec, callAt, Option.toList_some, afterCalls, List.foldl_cons, List.foldl_nil]
    cases disp (n + 1) ws l v.cmds with
    | mk c e => cases e with
      | none => simp
      | some e => cases cfg.errorsAreFatal <;> simp
  | script t opts hdr body endl => simp only [Item.exec]; split <;> rfl
  | _ => simp [Item.exec, callAt, afterCalls]

theorem filterMap_toList {α β : Type} (f : α → Option β) (x : α) (t : List α) : (x :: t).filterMap f = (f x).toList ++ t.filterMap f := by
  rw [List.filterMap_cons]; cases f x <;> rfl

theorem execAll_cmds (cfg : Cfg) (disp : Disp C) (l : List (Nat × Item)) (v : View C) (h : (execAll cfg disp l v).2 = none) :
    (execAll cfg disp l v).1.cmds = afterCalls disp (l.filterMap callAt) v.cmds := by
  induction l generalizing v with
  | nil => rfl
  | cons x t ih =>
    obtain ⟨n, it⟩ := x
    have hs := exec_cmds cfg disp n v it
    rw [execAll] at h ⊢
    cases he : it.exec cfg disp n v with
    | mk v' e =>
      rw [he] at h hs
      cases e with
      | some e => simp at h
      | none =>
        simp only at h hs ⊢
        rw [ih v' h, hs, filterMap_toList, afterCalls, afterCalls, afterCalls, List.foldl_append]

theorem afterCalls_traced (disp : Disp C) (l : List Call) (log : List Call) (c : C) :
    afterCalls (traced disp) l (log, c) = (log ++ l, afterCalls disp l c) := by
  induction l generalizing log c with
  | nil => simp [afterCalls]
  | cons k t ih =>
    simp only [afterCalls, List.foldl_cons] at ih ⊢
    simp only [traced] at ih ⊢
    rw [ih]
    simp

/-- C28: reading a text calls the dispatcher once per command line, in the order of the text, with
the words of the line, its number and the line itself, and nothing else calls it. -/
theorem C28_dispatch {s : PState (List Call × C)} (hc : Clean s) (hd : IsDoc cfg.version s.tags text items)
    (hok : (readString cfg w (traced disp) d text s).2 = none) :
    (readString cfg w (traced disp) d text s).1.cmds.1 = s.cmds.1 ++ (numbered 0 items).filterMap callAt := by
  obtain ⟨hv, he, _⟩ := readString_flat (cfg := cfg) (w := w) (disp := traced disp) (d := d) hc hd.lines hd.noIncl hd.wf
  rw [he] at hok
  have h := execAll_cmds cfg (traced disp) (numbered 0 items) s.view hok
  rw [← hv] at h
  have e : (readString cfg w (traced disp) d text s).1.view.cmds = (readString cfg w (traced disp) d text s).1.cmds := rfl
  rw [← e, h]
  have e2 : s.view.cmds = (s.cmds.1, s.cmds.2) := rfl
  rw [e2, afterCalls_traced]

theorem numbered_call_words {n : Nat} {items : List Item} :
    ((numbered n items).filterMap callAt).map (fun k => (k.words, k.line)) =
      items.filterMap fun | .cmd l ws => some (ws, l) | _ => none := by
  induction items generalizing n with
  | nil => rfl
  | cons it t ih => rw [numbered, List.filterMap_cons, List.filterMap_cons]; cases it <;> simp [callAt, ih]

/-- C33: every call is made with the physical number of the command's line, whatever sections come
before it, and with the words of that line. -/
theorem C33_line_numbers {s : PState (List Call × C)} (hc : Clean s) (hs : s.cmds.1 = []) (hd : IsDoc cfg.version s.tags text items)
    (hok : (readString cfg w (traced disp) d text s).2 = none) (k : Call)
    (hk : k ∈ (readString cfg w (traced disp) d text s).1.cmds.1) :
    ∃ n, k.lineno = n + 1 ∧ (splitLines text)[n]? = some k.line ∧ shlexSplit k.line true = .ok k.words := by
  rw [C28_dispatch hc hd hok, hs, List.nil_append] at hk
  obtain ⟨⟨n, it⟩, hm, hs⟩ := List.mem_filterMap.1 hk
  obtain ⟨_, hi, hp⟩ := numbered_spec hm
  cases it <;> simp only [callAt, Option.some.injEq, reduceCtorEq] at hs
  rename_i l ws
  subst hs
  refine ⟨n, rfl, ?_, (hd.wf _ hi).2.1⟩
  rw [hd.lines]
  obtain ⟨r, hr⟩ := hp
  have := congrArg List.head? hr
  rw [List.head?_drop] at this
  simpa [Item.lines] using this.symm

example : (readString { version := Version.F34 } ⟨[], fun _ => false, fun _ => .ok []⟩ (traced fun _ _ _ c => (c, none)) 1 sampleText
      ({ cmds := ([], ()) } : PState (List Call × Unit))).1.cmds.1 =
    [ ⟨2, [c!"lang", c!"en_US"], c!"lang en_US # comment\n"⟩, ⟨8, [c!"part", c!"/", c!"--size=1 2"], c!"part / --size=\"1 2\"\n"⟩,
      ⟨24, [c!"reboot"], c!"reboot"⟩ ] := by
  rw [C28_dispatch (cfg := { version := Version.F34 }) (clean_new _) (sample_isDoc_new _) (by decide +kernel)]
  decide +kernel

theorem exec_errors {cfg : Cfg} (hf : cfg.errorsAreFatal = false) (disp : Disp C) (n : Nat) (v : View C) (it : Item) :
    (it.exec cfg disp n v).1.printed = v.printed ++ failures disp (callAt (n, it)).toList v.cmds ∧
    (it.exec cfg disp n v).1.errorsCount = v.errorsCount + (failures disp (callAt (n, it)).toList v.cmds).length := by
  cases it with
  | cmd l ws =>
    simp only [Item.exec, callAt, Option.toList_some, failures, hf]
    cases disp (n + 1) ws l v.cmds with
    | mk c e => cases e <;> simp
  | script t opts hdr body endl => simp only [Item.exec]; split <;> simp [callAt, failures]
  | _ => simp [Item.exec, callAt, failures]

theorem failures_append (disp : Disp C) (a b : List Call) (c : C) :
    failures disp (a ++ b) c = failures disp a c ++ failures disp b (afterCalls disp a c) := by
  induction a generalizing c with
  | nil => rfl
  | cons k t ih => simp [failures, afterCalls, ih]

theorem execAll_errors {cfg : Cfg} (hf : cfg.errorsAreFatal = false) (disp : Disp C) (l : List (Nat × Item)) (v : View C) :
    (execAll cfg disp l v).1.printed = v.printed ++ failures disp (l.filterMap callAt) v.cmds ∧
    (execAll cfg disp l v).1.errorsCount = v.errorsCount + (failures disp (l.filterMap callAt) v.cmds).length := by
  induction l generalizing v with
  | nil => simp [execAll, failures]
  | cons x t ih =>
    obtain ⟨n, it⟩ := x
    have hn := exec_tolerant hf disp n v it
    have hs := exec_errors hf disp n v it
    have hcm := exec_cmds cfg disp n v it
    rw [execAll]
    cases he : it.exec cfg disp n v with
    | mk v' e =>
      rw [he] at hn hs hcm
      simp only at hn hs hcm
      subst hn
      simp only
      rw [filterMap_toList, failures_append, ← hcm]
      refine ⟨?_, ?_⟩
      · rw [(ih v').1, hs.1, List.append_assoc]
      · rw [(ih v').2, hs.2, List.length_append]; omega

/-- C30: with `errorsAreFatal=False` reading never stops: every command is dispatched (with its own
line number and the state the others left), each failure is printed in order and counted. -/
theorem C30_tolerant (hf : cfg.errorsAreFatal = false) (hc : Clean s) (hd : IsDoc cfg.version s.tags text items) :
    (readString cfg w disp d text s).2 = none ∧
    (readString cfg w disp d text s).1.cmds = afterCalls disp ((numbered 0 items).filterMap callAt) s.cmds ∧
    (readString cfg w disp d text s).1.printed = s.printed ++ failures disp ((numbered 0 items).filterMap callAt) s.cmds ∧
    (readString cfg w disp d text s).1.errorsCount =
      s.errorsCount + (failures disp ((numbered 0 items).filterMap callAt) s.cmds).length := by
  obtain ⟨hv, he, _⟩ := readString_flat (cfg := cfg) (w := w) (disp := disp) (d := d) hc hd.lines hd.noIncl hd.wf
  have hok := execAll_tolerant hf disp (numbered 0 items) s.view
  have h := execAll_cmds cfg disp (numbered 0 items) s.view hok
  have h2 := execAll_errors hf disp (numbered 0 items) s.view
  rw [← hv] at h h2
  exact ⟨he.trans hok, h, h2.1, h2.2⟩

/-- A dispatcher that fails on every command but `ok`, used in examples. -/
def picky : Disp (List Str) :=
  fun n ws _ c => if ws.head? = some c!"ok" then (c ++ ws, none) else (c, some (.parse c!"bad" (some n)))

example : (readString { version := Version.F34, errorsAreFatal := false } ⟨[], fun _ => false, fun _ => .ok []⟩ picky 1
      c!"a\nok 1\n\nb\nok 2\n" { cmds := [] }).1.printed = [.parse c!"bad" (some 1), .parse c!"bad" (some 4)] := by
  have hd : IsDoc Version.F34 ({ cmds := [] } : PState (List Str)).tags c!"a\nok 1\n\nb\nok 2\n"
      [.cmd c!"a\n" [c!"a"], .cmd c!"ok 1\n" [c!"ok", c!"1"], .skip c!"\n", .cmd c!"b\n" [c!"b"], .cmd c!"ok 2\n" [c!"ok", c!"2"]] :=
    isDoc_of_check (by decide +kernel)
  rw [(C30_tolerant rfl (clean_new _) hd).2.2.1]
  decide +kernel

theorem numbered_append (n : Nat) (a b : List Item) :
    numbered n (a ++ b) = numbered n a ++ numbered (n + (a.flatMap Item.lines).length) b := by
  induction a generalizing n with
  | nil => rfl
  | cons x t ih =>
    simp only [List.cons_append, numbered, ih, List.flatMap_cons, List.length_append, Nat.add_assoc]

/-- C31: with `errorsAreFatal=True`, if the text up to a command reads without error and that command
fails, then reading raises the command's exception, everything before it took effect exactly as if
it were the whole text, the error is counted, and nothing after it has any effect. -/
theorem C31_fatal (hf : cfg.errorsAreFatal = true) (hc : Clean s) {before after : List Item} {l : Str} {words : List Str} {c : C} {e : Exc}
    (hd : IsDoc cfg.version s.tags text (before ++ .cmd l words :: after)) {text' : Str}
    (hd' : IsDoc cfg.version s.tags text' before) (hok : (readString cfg w disp d text' s).2 = none)
    (hfail : disp ((splitLines text').length + 1) words l (readString cfg w disp d text' s).1.cmds = (c, some e)) :
    (readString cfg w disp d text s).2 = some e ∧
    (readString cfg w disp d text s).1.view =
      { (readString cfg w disp d text' s).1.view with cmds := c, errorsCount := (readString cfg w disp d text' s).1.errorsCount + 1 } := by
  obtain ⟨hv, he, _⟩ := readString_flat (cfg := cfg) (w := w) (disp := disp) (d := d) hc hd.lines hd.noIncl hd.wf
  obtain ⟨hv', he', _⟩ := readString_flat (cfg := cfg) (w := w) (disp := disp) (d := d) hc hd'.lines hd'.noIncl hd'.wf
  rw [he'] at hok
  have hx : execAll cfg disp (numbered 0 (before ++ .cmd l words :: after)) s.view =
      ({ (readString cfg w disp d text' s).1.view with cmds := c, errorsCount := (readString cfg w disp d text' s).1.errorsCount + 1 }, some e) := by
    rw [numbered_append, execAll_append]
    cases hex : execAll cfg disp (numbered 0 before) s.view with
    | mk v1 e1 =>
      rw [hex] at hok hv'
      simp only at hok hv'
      subst hok
      simp only [numbered, execAll, Item.exec]
      rw [hd'.lines] at hfail
      have e1 : (readString cfg w disp d text' s).1.cmds = v1.cmds := congrArg View.cmds hv'
      have e2 : (readString cfg w disp d text' s).1.errorsCount = v1.errorsCount := congrArg View.errorsCount hv'
      rw [e1] at hfail
      simp only [Nat.zero_add, hfail, hf, if_true, hv', e2]
  rw [hx] at hv he
  exact ⟨he, hv⟩

example : (readString { version := Version.F34 } ⟨[], fun _ => false, fun _ => .ok []⟩ picky 1
      c!"ok 1\n\nb\nok 2\n" { cmds := [] }).2 = some (.parse c!"bad" (some 3)) := by
  have hd : IsDoc Version.F34 ({ cmds := [] } : PState (List Str)).tags c!"ok 1\n\nb\nok 2\n"
      ([.cmd c!"ok 1\n" [c!"ok", c!"1"], .skip c!"\n"] ++ .cmd c!"b\n" [c!"b"] :: [.cmd c!"ok 2\n" [c!"ok", c!"2"]]) :=
    isDoc_of_check (by decide +kernel)
  have hd' : IsDoc Version.F34 ({ cmds := [] } : PState (List Str)).tags c!"ok 1\n\n"
      [.cmd c!"ok 1\n" [c!"ok", c!"1"], .skip c!"\n"] := isDoc_of_check (by decide +kernel)
  exact (C31_fatal (cfg := { version := Version.F34 }) (c := [c!"ok", c!"1"]) rfl (clean_new _) hd hd' (by decide +kernel)
    (by decide +kernel)).1

/-! ## C34 -/

/-- What a user sees, without line numbers. -/
def View.noLine (v : View C) : View C :=
  { v with scripts := v.scripts.map fun sc => { sc with lineno := none }, printed := v.printed.map Exc.noLine }

/-- A handler that uses the line number only to report it. -/
def LineFree (disp : Disp C) : Prop :=
  ∀ n m ws l c, (disp n ws l c).1 = (disp m ws l c).1 ∧ (disp n ws l c).2.map Exc.noLine = (disp m ws l c).2.map Exc.noLine

theorem exec_noLine (cfg : Cfg) {disp : Disp C} (hl : LineFree disp) (n m : Nat) (v v' : View C) (hv : v.noLine = v'.noLine) (it : Item) :
    (it.exec cfg disp n v).1.noLine = (it.exec cfg disp m v').1.noLine ∧
    (it.exec cfg disp n v).2.map Exc.noLine = (it.exec cfg disp m v').2.map Exc.noLine := by
  obtain ⟨cmds, packages, scripts, nullStrings, platform, errorsCount, printed, warnings, pending⟩ := v
  obtain ⟨cmds', packages', scripts', nullStrings', platform', errorsCount', printed', warnings', pending'⟩ := v'
  simp only [View.noLine, View.mk.injEq] at hv
  obtain ⟨rfl, rfl, hsc, rfl, rfl, rfl, hpr, rfl, rfl⟩ := hv
  cases it with
  | cmd l ws =>
    simp only [Item.exec]
    obtain ⟨h1, h2⟩ := hl (n + 1) (m + 1) ws l cmds
    cases hn : disp (n + 1) ws l cmds with
    | mk c e =>
      cases hm : disp (m + 1) ws l cmds with
      | mk c' e' =>
        rw [hn, hm] at h1 h2
        simp only at h1 h2
        subst h1
        cases e with
        | none =>
          cases e' with
          | none => simp [View.noLine, hsc, hpr]
          | some e' => simp at h2
        | some e =>
          cases e' with
          | none => simp at h2
          | some e' =>
            simp only [Option.map_some, Option.some.injEq] at h2
            cases cfg.errorsAreFatal <;> simp [View.noLine, hsc, hpr, h2]
  | pkgs args hdr body endl =>
    simp only [Item.exec, View.noLine, hsc, hpr]
    rw [header_lineno cfg.version (n + 1) (m + 1), packagesWarnings_lineno cfg.version (n + 1) (m + 1)]
    exact ⟨rfl, trivial⟩
  | script t opts hdr body endl =>
    simp only [Item.exec]
    split <;> simp [View.noLine, hsc, hpr, scriptOf]
  | _ => simp [Item.exec, View.noLine, hsc, hpr]

theorem execAll_noLine (cfg : Cfg) {disp : Disp C} (hl : LineFree disp) (a b : List (Nat × Item)) (hab : a.map (·.2) = b.map (·.2))
    (v v' : View C) (hv : v.noLine = v'.noLine) :
    (execAll cfg disp a v).1.noLine = (execAll cfg disp b v').1.noLine ∧
    (execAll cfg disp a v).2.map Exc.noLine = (execAll cfg disp b v').2.map Exc.noLine := by
  induction a generalizing b v v' with
  | nil =>
    cases b with
    | nil => exact ⟨hv, rfl⟩
    | cons x t => simp at hab
  | cons x a ih =>
    cases b with
    | nil => simp at hab
    | cons y b =>
      obtain ⟨n, it⟩ := x
      obtain ⟨m, it'⟩ := y
      simp only [List.map_cons, List.cons.injEq] at hab
      obtain ⟨rfl, hab⟩ := hab
      obtain ⟨h1, h2⟩ := exec_noLine cfg hl n m v v' hv it
      rw [execAll, execAll]
      cases hn : it.exec cfg disp n v with
      | mk c e =>
        cases hm : it.exec cfg disp m v' with
        | mk c' e' =>
          rw [hn, hm] at h1 h2
          cases e with
          | none =>
            cases e' with
            | none => exact ih b hab c c' h1
            | some e' => simp at h2
          | some e =>
            cases e' with
            | none => simp at h2
            | some e' => exact ⟨h1, h2⟩

theorem numbered_snd (n : Nat) (items : List Item) : (numbered n items).map (·.2) = items := by
  induction items generalizing n with
  | nil => rfl
  | cons x t ih => simp [numbered, ih]

/-- C34: reading a file with includes, nested to any depth `d`, has the same effect as reading the
text in which every include line is replaced by the contents of the file: same commands, packages,
scripts, unknown sections, error count, messages and exception, apart from line numbers.  (With
`missingIncludeIsFatal=False` and fatal errors the exception of an included command is swallowed, see
`C34_swallowed`.) -/
theorem C34_include_is_paste (hfollow : cfg.followIncludes = true)
    (hm : cfg.missingIncludeIsFatal = true ∨ cfg.errorsAreFatal = false) (hl : LineFree disp) (hc : Clean s)
    {f : Str} {out : List (Nat × Item)} (hload : w.load f = .ok text) (ht : splitLines text = items.flatMap Item.lines)
    (he : Expands w cfg.version s.tags (! cfg.missingIncludeIsFatal) (some (dirOf w f)) d 0 items out)
    {pasted : Str} (hp : IsDoc cfg.version s.tags pasted (out.map (·.2))) (d' : Nat) :
    (readKickstart cfg w disp (d + 1) f s).1.view.noLine = (readString cfg w disp d' pasted s).1.view.noLine ∧
    (readKickstart cfg w disp (d + 1) f s).2.map Exc.noLine = (readString cfg w disp d' pasted s).2.map Exc.noLine := by
  obtain ⟨h1, h2⟩ := readKickstart_expands (cfg := cfg) (disp := disp) hc hfollow hm hload ht he
  obtain ⟨h3, h4, _⟩ := readString_flat (cfg := cfg) (w := w) (disp := disp) (d := d') hc hp.lines hp.noIncl hp.wf
  rw [h1, h2, h3, h4]
  exact execAll_noLine cfg hl _ _ (numbered_snd _ _).symm _ _ rfl

/-- A file system for the examples: `/d/main` includes `a`, found next to it, which includes `/e/b`. -/
def sampleWorld : World where
  cwd := c!"/"
  exist := fun f => f ∈ [c!"/d/main", c!"/d/a", c!"/e/b"]
  load := fun f =>
    if f = c!"/d/main" then .ok c!"ok 1\n%include a\nok 2\n"
    else if f = c!"/d/a" then .ok c!"# x\n%include /e/b\nok 3\n"
    else if f = c!"/e/b" then .ok c!"%post\nz\n%end\nbad\n"
    else .error (.ks c!"missing" none)

theorem sampleWorld_expands : Expands sampleWorld Version.F34 standardTags false (some (dirOf sampleWorld c!"/d/main")) 3 0
    [.cmd c!"ok 1\n" [c!"ok", c!"1"], .incl c!"%include a\n" c!"a", .cmd c!"ok 2\n" [c!"ok", c!"2"]]
    ((0, .cmd c!"ok 1\n" [c!"ok", c!"1"]) ::
      (((0, .skip c!"# x\n") :: ([(0, .script .post [] c!"%post\n" [c!"z\n"] c!"%end\n"), (3, .cmd c!"bad\n" [c!"bad"])] ++
        [(2, .cmd c!"ok 3\n" [c!"ok", c!"3"])])) ++ [(2, .cmd c!"ok 2\n" [c!"ok", c!"2"])])) := by
  refine .item (by simp) (wf_of_check (by decide +kernel)) (.incl (text := c!"# x\n%include /e/b\nok 3\n")
    (sub := [.skip c!"# x\n", .incl c!"%include /e/b\n" c!"/e/b", .cmd c!"ok 3\n" [c!"ok", c!"3"]])
    (by decide +kernel) (by decide +kernel) (by decide +kernel) ?_
    (.item (by simp) (wf_of_check (by decide +kernel)) .nil))
  refine .item (by simp) (wf_of_check (by decide +kernel)) (.incl (text := c!"%post\nz\n%end\nbad\n")
    (sub := [.script .post [] c!"%post\n" [c!"z\n"] c!"%end\n", .cmd c!"bad\n" [c!"bad"]])
    (by decide +kernel) (by decide +kernel) (by decide +kernel) ?_
    (.item (by simp) (wf_of_check (by decide +kernel)) .nil))
  exact .item (by simp) (wf_of_check (by decide +kernel)) (.item (by simp) (wf_of_check (by decide +kernel)) .nil)

theorem picky_lineFree : LineFree picky := by
  intro n m ws l c
  unfold picky
  split <;> exact ⟨rfl, rfl⟩

example : (readKickstart { version := Version.F34, errorsAreFatal := false } sampleWorld picky 4 c!"/d/main" { cmds := [] }).1.view.noLine =
    (readString { version := Version.F34, errorsAreFatal := false } sampleWorld picky 1 c!"ok 1\n# x\n%post\nz\n%end\nbad\nok 3\nok 2\n" { cmds := [] }).1.view.noLine :=
  (C34_include_is_paste (cfg := { version := Version.F34, errorsAreFatal := false }) rfl (.inr rfl) picky_lineFree (clean_new _)
    (f := c!"/d/main") rfl (by decide +kernel) sampleWorld_expands (isDoc_of_check (by decide +kernel)) 1).1

/-- With `missingIncludeIsFatal=False` and fatal errors, an error in an included command is dropped
together with the rest of the included file: not the same as pasting. -/
theorem C34_swallowed :
    let cfg : Cfg := { version := Version.F34, missingIncludeIsFatal := false }
    (readKickstart cfg sampleWorld picky 4 c!"/d/main" { cmds := [] }).2 = none ∧
    (readString cfg sampleWorld picky 4 c!"ok 1\n# x\n%post\nz\n%end\nbad\nok 3\nok 2\n" { cmds := [] }).2 = some (.parse c!"bad" (some 6)) := by
  decide +kernel

end Ks
