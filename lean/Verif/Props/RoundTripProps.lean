import Verif.PackagesHeader
import Verif.Props.DocProps
import Verif.Props.ShlexProps
import Verif.Props.PackagesProps
/-!
# Writing and reading back (C22, C26)
-/
namespace Ks
variable {C : Type}
variable {cfg : Cfg} {w : World} {disp : Disp C} {d : Nat} {s : PState C}

/-- Cutting a text after a line feed. -/
theorem splitLines_append {a b : Str} (h : a = [] ∨ a.getLast? = some '\n') : splitLines (a ++ b) = splitLines a ++ splitLines b := by
  fun_induction splitLines a with
  | case1 => rfl
  | case2 c =>
    rcases h with h | h
    · cases h
    · simp only [List.getLast?_singleton, Option.some.injEq] at h
      subst h
      exact splitLines_line (b := []) (by simp [NoBreak])
  | case3 c d t hc ih =>
    obtain ⟨rfl, rfl⟩ := hc
    have ht : t = [] ∨ t.getLast? = some '\n' := by
      rcases h with h | h
      · cases h
      · cases t with
        | nil => exact .inl rfl
        | cons x y => right; simpa [List.getLast?_cons_cons] using h
    rw [List.cons_append, List.cons_append, splitLines, if_pos ⟨rfl, rfl⟩, ih ht]
    rfl
  | case4 c d t h1 h2 ih =>
    have ht : (d :: t).getLast? = some '\n' := by
      rcases h with h | h
      · cases h
      · simpa [List.getLast?_cons_cons] using h
    rw [List.cons_append, List.cons_append, splitLines, if_neg h1, if_pos h2, ← List.cons_append, ih (.inr ht)]
    rfl
  | case5 c d t h1 h2 h3 ih => exact absurd h3 (splitLines_ne_nil (by simp))
  | case6 c d t h1 h2 l ls h3 ih =>
    have ht : (d :: t).getLast? = some '\n' := by
      rcases h with h | h
      · cases h
      · simpa [List.getLast?_cons_cons] using h
    have e := ih (.inr ht)
    rw [h3] at e
    rw [List.cons_append, List.cons_append, splitLines, if_neg h1, if_neg h2, ← List.cons_append, e]
    rfl

/-! ## C26 -/

/-- A value that can be written in a header without quotes: no blank, quote, backslash, `#` or line
break. -/
def BareValue (v : Str) : Prop := ∀ c ∈ v, BareChar true c ∧ isLineBreak c = false

instance (cm : Bool) (c : Char) : Decidable (BareChar cm c) := by unfold BareChar; infer_instance
instance (v : Str) : Decidable (BareValue v) := by unfold BareValue; infer_instance

/-- The text of the script, with a line feed at the end. -/
def Script.ended (sc : Script) : Str := if endsWith sc.script c!"\n" then sc.script else sc.script ++ c!"\n"

/-- Scripts that can be written and read back: the header values are bare, only `%post` scripts know
about chroot, the script is not blank, and none of its lines starts with a section tag, `%end` or `%include`. -/
structure Script.Writable (tags : List Str) (sc : Script) : Prop where
  interp : sc.interp ≠ [] ∧ BareValue sc.interp
  log : ∀ l, sc.logfile = some l → BareValue l
  chroot : sc.type ≠ .post → sc.inChroot = false
  notBlank : ∃ c ∈ sc.script, isSpace c = false
  plain : ∀ l ∈ splitLines sc.ended, PlainLine tags l

/-- The options of the written header. -/
def Script.opts (sc : Script) : List ScriptOpt :=
  (if sc.interp ≠ c!"/bin/sh" ∧ sc.interp ≠ [] then [.interpreter sc.interp] else []) ++
  (if sc.type = .post ∧ ¬ sc.inChroot then [.nochroot] else []) ++
  (match sc.logfile with | some l => [.logfile l] | none => []) ++
  (if sc.errorOnFail then [.erroronfail] else [])

theorem joinWith_cons_blank (x : Str) (l : List Str) : joinWith c!" " (x :: l) = x ++ (l.map (c!" " ++ ·)).flatten := by
  induction l generalizing x with
  | nil => simp [joinWith]
  | cons y t ih => rw [joinWith, ih]; simp

theorem Script.header_eq (sc : Script) : sc.header = c!"\n" ++ joinWith c!" " (sc.type.tag :: sc.opts.map ScriptOpt.text) := by
  rw [joinWith_cons_blank]
  unfold Script.header Script.opts
  have h1 : ∀ (c : Prop) [Decidable c] (o : ScriptOpt) , (((if c then [o] else []).map ScriptOpt.text).map (c!" " ++ ·)).flatten = if c then c!" " ++ o.text else [] := by
    intro c _ o; split <;> simp
  simp only [List.map_append, List.flatten_append, h1]
  cases sc.logfile <;> simp [ScriptOpt.text]

theorem bare_shlex {words : List Str} (h : ∀ x ∈ words, x ≠ [] ∧ ∀ c ∈ x, BareChar true c) :
    shlexSplit (joinWith c!" " words ++ c!"\n") true = .ok words := by
  have := C08_words true (words.map fun x => x.map Seg.bare) [] c!"\n"
    (fun y hy => by obtain ⟨x, hx, rfl⟩ := List.mem_map.1 hy; exact word_bare_ok (h x hx).1 (h x hx).2) (by simp) (by decide)
  simpa [List.map_map, Function.comp_def] using this

theorem bareValue_append {a b : Str} (ha : BareValue a) (hb : BareValue b) : BareValue (a ++ b) := by
  intro c hc
  rcases List.mem_append.1 hc with hc | hc
  · exact ha c hc
  · exact hb c hc

theorem opt_bare {tags : List Str} {sc : Script} (h : sc.Writable tags) : ∀ o ∈ sc.opts, o.text ≠ [] ∧ BareValue o.text := by
  intro o ho
  unfold Script.opts at ho
  simp only [List.mem_append] at ho
  rcases ho with ((ho | ho) | ho) | ho
  · split at ho
    · rw [List.mem_singleton.1 ho]
      exact ⟨by simp [ScriptOpt.text], bareValue_append (by decide) h.interp.2⟩
    · simp at ho
  · split at ho
    · rw [List.mem_singleton.1 ho]; exact ⟨by simp [ScriptOpt.text], by decide⟩
    · simp at ho
  · split at ho
    · rename_i l hl
      rw [List.mem_singleton.1 ho]; exact ⟨by simp [ScriptOpt.text], bareValue_append (by decide) (h.log l hl)⟩
    · simp at ho
  · split at ho
    · rw [List.mem_singleton.1 ho]; exact ⟨by simp [ScriptOpt.text], by decide⟩
    · simp at ho

theorem tag_bare (t : ScriptType) : t.tag ≠ [] ∧ BareValue t.tag := by cases t <;> exact ⟨by simp [ScriptType.tag], by decide⟩

/-- The header line that is written. -/
def Script.hdr (sc : Script) : Str := joinWith c!" " (sc.type.tag :: sc.opts.map ScriptOpt.text) ++ c!"\n"

theorem noBreak_join {words : List Str} (h : ∀ x ∈ words, NoBreak x) : NoBreak (joinWith c!" " words) := by
  induction words with
  | nil => simp [joinWith, NoBreak]
  | cons x t ih =>
    rw [joinWith_cons_blank]
    intro c hc
    rcases List.mem_append.1 hc with hc | hc
    · exact h x (by simp) c hc
    · obtain ⟨y, hy, hcy⟩ := List.mem_flatten.1 hc
      obtain ⟨z, hz, rfl⟩ := List.mem_map.1 hy
      rcases List.mem_append.1 hcy with hcy | hcy
      · rw [List.mem_singleton.1 hcy]; decide
      · exact h z (by simp [hz]) c hcy

theorem notBlank_of_head {c : Char} {t : Str} (h1 : isSpace c = false) (h2 : c ≠ '#') : isBlankOrComment (c :: t) = false := by
  unfold isBlankOrComment
  have : lstrip (c :: t) = c :: t := lstrip_eq_self (fun x hx => by simp only [List.head?_cons, Option.some.injEq] at hx; subst hx; exact h1)
  rw [this]
  simp [strIsSpace, h1, h2]

theorem header_line {tags : List Str} {sc : Script} (h : sc.Writable tags) :
    HeaderLine sc.hdr sc.type.tag (sc.opts.map ScriptOpt.text) := by
  have hw : ∀ x ∈ sc.type.tag :: sc.opts.map ScriptOpt.text, x ≠ [] ∧ ∀ c ∈ x, BareChar true c := by
    intro x hx
    rcases List.mem_cons.1 hx with rfl | hx
    · exact ⟨(tag_bare _).1, fun c hc => ((tag_bare _).2 c hc).1⟩
    · obtain ⟨o, ho, rfl⟩ := List.mem_map.1 hx
      exact ⟨(opt_bare h o ho).1, fun c hc => ((opt_bare h o ho).2 c hc).1⟩
  refine ⟨?_, bare_shlex hw, ?_, ?_, ?_⟩
  · unfold Script.hdr
    rw [joinWith_cons_blank]
    obtain ⟨t, ht⟩ : ∃ t, sc.type.tag = '%' :: t := by cases sc.type <;> exact ⟨_, rfl⟩
    rw [ht]
    exact notBlank_of_head (by decide) (by decide)
  · cases sc.type <;> rfl
  · cases sc.type <;> decide
  · cases sc.type <;> decide

/-- The written script as parts of a file. -/
def Script.items (sc : Script) : List Item :=
  [.skip c!"\n", .script sc.type sc.opts sc.hdr (splitLines sc.ended) c!"%end\n"]

theorem Script.str_eq {ver : Nat} (hv : ver ≥ Version.F8) (sc : Script) : sc.str ver = c!"\n" ++ sc.hdr ++ sc.ended ++ c!"%end\n" := by
  unfold Script.str Script.ended Script.hdr
  rw [Script.header_eq]
  split <;> simp

theorem endsWith_nl {x : Str} (h : endsWith x c!"\n" = true) : x.getLast? = some '\n' := by
  unfold endsWith at h
  obtain ⟨t, ht⟩ := List.isSuffixOf_iff_suffix.1 h
  rw [← ht]; simp

theorem Script.ended_last (sc : Script) : sc.ended.getLast? = some '\n' := by
  unfold Script.ended
  split
  · rename_i h; exact endsWith_nl h
  · simp

theorem hdr_noBreak {tags : List Str} {sc : Script} (h : sc.Writable tags) :
    NoBreak (joinWith c!" " (sc.type.tag :: sc.opts.map ScriptOpt.text)) := by
  apply noBreak_join
  intro x hx
  rcases List.mem_cons.1 hx with rfl | hx
  · exact fun c hc => ((tag_bare _).2 c hc).2
  · obtain ⟨o, ho, rfl⟩ := List.mem_map.1 hx
    exact fun c hc => ((opt_bare h o ho).2 c hc).2

theorem Script.splitLines_str {tags : List Str} {sc : Script} (h : sc.Writable tags) {ver : Nat} (hv : ver ≥ Version.F8) (rest : Str) :
    splitLines (sc.str ver ++ rest) = sc.items.flatMap Item.lines ++ splitLines rest := by
  rw [Script.str_eq hv]
  have e1 : c!"\n" ++ sc.hdr ++ sc.ended ++ c!"%end\n" ++ rest = [] ++ '\n' :: (sc.hdr ++ (sc.ended ++ (c!"%end\n" ++ rest))) := by simp
  rw [e1, splitLines_line (by simp [NoBreak])]
  unfold Script.hdr
  rw [List.append_assoc, List.singleton_append, splitLines_line (hdr_noBreak h), splitLines_append (.inr sc.ended_last)]
  have e2 : c!"%end\n" ++ rest = c!"%end" ++ '\n' :: rest := rfl
  rw [e2, splitLines_line (by decide)]
  simp [Script.items, Item.lines, Script.hdr]

theorem Script.items_wf {v : Nat} {tags : List Str} {sc : Script} (h : sc.Writable tags) : ∀ it ∈ sc.items, it.WF v tags := by
  intro it hit
  unfold Script.items at hit
  simp only [List.mem_cons, List.not_mem_nil, or_false] at hit
  rcases hit with rfl | rfl
  · exact ⟨by simp, by decide⟩
  · refine ⟨header_line h, fun hn => ?_, h.plain, by decide +kernel⟩
    unfold Script.opts at hn
    simp only [List.mem_append] at hn
    rcases hn with ((hn | hn) | hn) | hn
    · split at hn <;> simp at hn
    · split at hn
      · rename_i hp; exact hp.1
      · simp at hn
    · split at hn <;> simp at hn
    · split at hn <;> simp at hn

/-- What a written and read script becomes: its text ends in a line feed, and it has a line number. -/
theorem scriptOf_written {tags : List Str} {sc : Script} (h : sc.Writable tags) (n : Nat) :
    scriptOf sc.type sc.opts n (splitLines sc.ended) = { sc with script := sc.ended, lineno := some n } := by
  unfold scriptOf
  rw [splitLines_flatten]
  have h1 : ((sc.opts.filterMap ScriptOpt.interp?).getLast?).getD c!"/bin/sh" = sc.interp := by
    unfold Script.opts
    simp only [List.filterMap_append]
    have a1 : (if sc.type = .post ∧ ¬ sc.inChroot then [ScriptOpt.nochroot] else []).filterMap ScriptOpt.interp? = [] := by split <;> rfl
    have a2 : (match sc.logfile with | some l => [ScriptOpt.logfile l] | none => []).filterMap ScriptOpt.interp? = [] := by split <;> rfl
    have a3 : (if sc.errorOnFail then [ScriptOpt.erroronfail] else []).filterMap ScriptOpt.interp? = [] := by split <;> rfl
    rw [a1, a2, a3]
    simp only [List.append_nil]
    by_cases e : sc.interp = c!"/bin/sh"
    · rw [if_neg (fun x => x.1 e), e]; rfl
    · rw [if_pos ⟨e, h.interp.1⟩]; rfl
  have h2 : (sc.opts.filterMap ScriptOpt.log?).getLast? = sc.logfile := by
    unfold Script.opts
    simp only [List.filterMap_append]
    have a0 : (if sc.interp ≠ c!"/bin/sh" ∧ sc.interp ≠ [] then [ScriptOpt.interpreter sc.interp] else []).filterMap ScriptOpt.log? = [] := by split <;> rfl
    have a1 : (if sc.type = .post ∧ ¬ sc.inChroot then [ScriptOpt.nochroot] else []).filterMap ScriptOpt.log? = [] := by split <;> rfl
    have a3 : (if sc.errorOnFail then [ScriptOpt.erroronfail] else []).filterMap ScriptOpt.log? = [] := by split <;> rfl
    rw [a0, a1, a3]
    cases sc.logfile <;> rfl
  have h3 : (ScriptOpt.erroronfail ∈ sc.opts) ↔ sc.errorOnFail = true := by
    unfold Script.opts
    cases sc.logfile <;> cases sc.errorOnFail <;> simp <;> split <;> simp
  have h4 : (sc.type = .post ∧ ScriptOpt.nochroot ∉ sc.opts) ↔ sc.inChroot = true := by
    have : ScriptOpt.nochroot ∈ sc.opts ↔ sc.type = .post ∧ ¬ sc.inChroot := by
      unfold Script.opts
      cases sc.logfile <;> cases sc.errorOnFail <;> simp <;> split <;> simp
    rw [this]
    constructor
    · rintro ⟨a, b⟩
      cases hc : sc.inChroot with
      | true => rfl
      | false => exact absurd ⟨a, by simp [hc]⟩ b
    · intro hc
      refine ⟨?_, by simp [hc]⟩
      by_cases ht : sc.type = .post
      · exact ht
      · rw [h.chroot ht] at hc; cases hc
  rw [h1, h2]
  have h3' : decide (ScriptOpt.erroronfail ∈ sc.opts) = sc.errorOnFail := by rw [Bool.eq_iff_iff, decide_eq_true_iff]; exact h3
  have h4' : decide (sc.type = .post ∧ ScriptOpt.nochroot ∉ sc.opts) = sc.inChroot := by rw [Bool.eq_iff_iff, decide_eq_true_iff]; exact h4
  rw [h3', h4']

theorem written_notBlank {tags : List Str} {sc : Script} (h : sc.Writable tags) : ¬ BlankBody (splitLines sc.ended) := by
  intro hb
  obtain ⟨c, hc, hs⟩ := h.notBlank
  have hm : c ∈ (splitLines sc.ended).flatten := by
    rw [splitLines_flatten]
    unfold Script.ended
    split
    · exact hc
    · simp [hc]
  obtain ⟨l, hl, hcl⟩ := List.mem_flatten.1 hm
  rw [hb l hl c hcl] at hs
  cases hs

/-- The written scripts are parts of a file. -/
theorem scripts_isDoc {v : Nat} {tags : List Str} {scripts : List Script} (hs : ∀ sc ∈ scripts, sc.Writable tags) {ver : Nat} (hv : ver ≥ Version.F8) :
    IsDoc v tags (scripts.flatMap (Script.str ver)) (scripts.flatMap Script.items) := by
  refine ⟨?_, ?_, ?_⟩
  · induction scripts with
    | nil => rfl
    | cons sc t ih =>
      rw [List.flatMap_cons, List.flatMap_cons, Script.splitLines_str (hs sc (by simp)) hv, ih (fun x hx => hs x (by simp [hx])), List.flatMap_append]
  · intro it hit l f
    obtain ⟨sc, _, h⟩ := List.mem_flatMap.1 hit
    unfold Script.items at h
    simp only [List.mem_cons, List.not_mem_nil, or_false] at h
    rcases h with rfl | rfl <;> simp
  · intro it hit
    obtain ⟨sc, hsc, h⟩ := List.mem_flatMap.1 hit
    exact Script.items_wf (hs sc hsc) it h

/-- Reading the written scripts. -/
theorem execAll_written {tags : List Str} (l : List Script) (hl : ∀ sc ∈ l, sc.Writable tags) (n : Nat) (v : View C) (hp : ∀ t, v.pending t = []) :
    ∃ new wn pd, execAll cfg disp (numbered n (l.flatMap Script.items)) v =
        ({ v with scripts := v.scripts ++ new, warnings := v.warnings ++ wn, pending := pd }, none) ∧
      new.map (fun x => { x with lineno := none }) = l.map (fun sc => { sc with script := sc.ended, lineno := none }) ∧ ∀ t, pd t = [] := by
  induction l generalizing n v with
  | nil => exact ⟨[], [], v.pending, by simp [numbered, execAll], rfl, hp⟩
  | cons sc t ih =>
    have hsc := hl sc (by simp)
    have e : numbered n ((sc :: t).flatMap Script.items) =
        (n, .skip c!"\n") :: (n + 1, .script sc.type sc.opts sc.hdr (splitLines sc.ended) c!"%end\n") ::
          numbered (n + 1 + (Item.script sc.type sc.opts sc.hdr (splitLines sc.ended) c!"%end\n").lines.length) (t.flatMap Script.items) := rfl
    rw [e, execAll]
    have e1 : Item.exec cfg disp n v (.skip c!"\n") = (v, none) := rfl
    rw [e1]
    simp only
    rw [execAll]
    have e2 : Item.exec cfg disp (n + 1) v (.script sc.type sc.opts sc.hdr (splitLines sc.ended) c!"%end\n") =
        ({ v with scripts := v.scripts ++ [scriptOf sc.type sc.opts (n + 1 + 1) (splitLines sc.ended)],
                  pending := fun t' => if t' = sc.type then [] else v.pending t',
                  warnings := v.warnings ++ scriptWarns cfg.version sc.type }, none) := by
      simp only [Item.exec, hp, List.nil_append]
      rw [if_neg (written_notBlank hsc)]
    rw [e2]
    simp only
    obtain ⟨new, wn, pd, h1, h2, h3⟩ := ih (fun x hx => hl x (by simp [hx]))
      (n + 1 + (Item.script sc.type sc.opts sc.hdr (splitLines sc.ended) c!"%end\n").lines.length)
      { v with scripts := v.scripts ++ [scriptOf sc.type sc.opts (n + 1 + 1) (splitLines sc.ended)],
               pending := fun t' => if t' = sc.type then [] else v.pending t',
               warnings := v.warnings ++ scriptWarns cfg.version sc.type }
      (fun t' => by simp only; split <;> first | rfl | exact hp t')
    refine ⟨scriptOf sc.type sc.opts (n + 1 + 1) (splitLines sc.ended) :: new, scriptWarns cfg.version sc.type ++ wn, pd, ?_, ?_, h3⟩
    · rw [h1]; simp
    · rw [List.map_cons, List.map_cons, h2, scriptOf_written hsc]

/-- C26: writing any list of scripts for a syntax with `%end` and reading the text back adds those
scripts, in order, with the same type, interpreter, log file, `errorOnFail` and chroot setting and
the same text (up to a line feed at the very end), and nothing else. -/
theorem C26_script_roundtrip (hc : Clean s) (hp : ∀ t, s.pending t = []) {scripts : List Script} (hs : ∀ sc ∈ scripts, sc.Writable s.tags)
    {ver : Nat} (hv : ver ≥ Version.F8) :
    let r := readString cfg w disp d (scripts.flatMap (Script.str ver)) s
    r.2 = none ∧
    r.1.scripts.map (fun x => { x with lineno := none }) =
      s.scripts.map (fun x => { x with lineno := none }) ++ scripts.map (fun sc => { sc with script := sc.ended, lineno := none }) ∧
    r.1.cmds = s.cmds ∧ r.1.packages = s.packages ∧ r.1.nullStrings = s.nullStrings := by
  have hd := scripts_isDoc (v := cfg.version) hs hv
  obtain ⟨hview, herr, _, _⟩ := readString_flat (cfg := cfg) (w := w) (disp := disp) (d := d) hc hd.lines hd.noIncl hd.wf
  obtain ⟨new, wn, pd, h1, h2, h3⟩ := execAll_written (cfg := cfg) (disp := disp) scripts hs 0 s.view hp
  rw [h1] at hview herr
  generalize readString cfg w disp d (scripts.flatMap (Script.str ver)) s = r at *
  refine ⟨herr, ?_, congrArg View.cmds hview, congrArg View.packages hview, congrArg View.nullStrings hview⟩
  have : r.1.scripts = s.scripts ++ new := congrArg View.scripts hview
  rw [this, List.map_append, h2]

/-- Two scripts that are writable, one without a line feed at its end. -/
def writableSample : List Script :=
  [ { script := c!"echo \"it's # 100%\"\n  %foo\n\n", interp := c!"/usr/bin/python3", logfile := some c!"/root/x.log", errorOnFail := true, type := .post },
    { script := c!"true", type := .onerror } ]

theorem writableSample_ok : ∀ sc ∈ writableSample, sc.Writable standardTags := by
  intro sc h
  simp only [writableSample, List.mem_cons, List.not_mem_nil, or_false] at h
  rcases h with rfl | rfl
  · exact ⟨⟨by decide, by decide⟩, fun l hl => (by cases hl; decide), fun h => absurd rfl h, ⟨'e', by decide, by decide⟩, by decide +kernel⟩
  · exact ⟨⟨by decide, by decide⟩, fun l hl => (by cases hl), fun _ => rfl, ⟨'t', by decide, by decide⟩, by decide +kernel⟩

example : ((readString { version := Version.F34 } sampleWorld picky 2 (writableSample.flatMap (Script.str Version.F34)) { cmds := [] }).1.scripts.map
      fun x => { x with lineno := none }) =
    [ { script := c!"echo \"it's # 100%\"\n  %foo\n\n", interp := c!"/usr/bin/python3", logfile := some c!"/root/x.log", errorOnFail := true, type := .post },
      { script := c!"true\n", type := .onerror } ] :=
  (C26_script_roundtrip (s := { cmds := [] }) (cfg := { version := Version.F34 }) (clean_new _) (pending_new _) writableSample_ok (by decide)).2.1.trans (by decide +kernel)

/-! ## C22: the lines -/

/-- Package lists as `add` keeps them. -/
structure Packages.Tidy (p : Packages) : Prop where
  packages : p.packageList.Pairwise (· < ·)
  excluded : p.excludedList.Pairwise (· < ·)
  disjoint : ∀ x ∈ p.packageList, x ∉ p.excludedList

theorem handleLine_of_strip {l x : Str} (hh : '#' ∉ l) (hs : strip l = x) (p : Packages) : ∃ l', strip l' = x ∧ p.handleLine l = p.add [l'] := by
  refine ⟨rstrip (partition '#' l).1, ?_, rfl⟩
  rw [partition_fst_eq, strip_rstrip]
  have : beforeHash l = l := by
    clear hs
    induction l with
    | nil => rfl
    | cons c t ih =>
      simp only [List.mem_cons, not_or] at hh
      unfold beforeHash at *
      rw [List.takeWhile_cons, if_pos (by simpa using fun e => hh.1 e.symm), ih hh.2]
  rw [this, hs]

theorem filter_eq_self_of {l m : List Str} (h : ∀ x ∈ l, x ∉ m) : l.filter (fun x => x ∉ m) = l := by
  rw [List.filter_eq_self]
  intro x hx; simp [h x hx]

theorem filter_groups_nil (l : List Group) : l.filter (fun g => g.name ∉ ([] : List Group).map (·.name)) = l := by
  rw [List.filter_eq_self]; intro x _; simp

variable {p : Packages}

theorem line_env (ht : p.Tidy) {l e : Str} (hh : '#' ∉ l) (hs : strip l = c!"@^" ++ e) :
    p.handleLine l = ({ p with environment := some e }, none) := by
  obtain ⟨l', h1, h2⟩ := handleLine_of_strip hh hs p
  rw [h2, Packages.add, Packages.addLoop, addLine_eq, kind_env.2 h1]
  simp only [Packages.addLoop, Packages.addFinish, filter_groups_nil, List.append_nil]
  rw [filter_eq_self_of (m := []) (by simp), filter_eq_self_of (fun x hx hx' => ht.disjoint x hx' hx), sortedSet_of_ascending ht.packages, sortedSet_of_ascending ht.excluded]

theorem line_group (ht : p.Tidy) {l : Str} {ws : List Str} {m : GroupMode} (hh : '#' ∉ l) (hs : strip l = c!"@" ++ joinWith c!" " ws ++ m.suffix)
    (hw : ∀ w ∈ ws, IsWord w ∧ startsWith w c!"-" = false) (he : (joinWith c!" " ws ++ m.suffix).head? ≠ some '^')
    (hn : joinWith c!" " ws ∉ p.groupList.map (·.name)) :
    p.handleLine l = ({ p with groupList := p.groupList ++ [⟨joinWith c!" " ws, m⟩] }, none) := by
  obtain ⟨l', h1, h2⟩ := handleLine_of_strip hh hs p
  have hk : lineKind (strip l') = .group (joinWith c!" " ws ++ m.suffix) := by
    have : strip l' = '@' :: (joinWith c!" " ws ++ m.suffix) := by rw [h1]; rfl
    rw [this]; unfold lineKind; simp only [if_true]; rw [if_neg he]
  rw [h2, Packages.add, Packages.addLoop, addLine_eq, hk]
  simp only
  rw [processGroup_words p ws hw m, if_neg hn]
  simp only [Packages.addLoop, Packages.addFinish, filter_groups_nil, List.append_nil]
  rw [filter_eq_self_of (m := []) (by simp), filter_eq_self_of (fun x hx hx' => ht.disjoint x hx' hx), sortedSet_of_ascending ht.packages, sortedSet_of_ascending ht.excluded]

theorem line_pkg (ht : p.Tidy) {l x : Str} (hh : '#' ∉ l) (hs : NamesPkg x l) (hx : x ∉ p.excludedList) (hlt : ∀ y ∈ p.packageList, y < x) :
    p.handleLine l = ({ p with packageList := p.packageList ++ [x] }, none) := by
  obtain ⟨l', h1, h2⟩ := handleLine_of_strip hh hs.1 p
  have hk : lineKind (strip l') = .pkg x := kind_pkg.2 ⟨h1, hs.2⟩
  rw [h2, Packages.add, Packages.addLoop, addLine_eq, hk]
  simp only [Packages.addLoop, Packages.addFinish, filter_groups_nil, List.append_nil, List.nil_append]
  rw [filter_eq_self_of (m := []) (by simp), filter_eq_self_of, sortedSet_of_ascending ht.excluded, sortedSet_of_ascending]
  · rw [List.pairwise_append]
    exact ⟨ht.packages, List.pairwise_singleton _ _, by simpa using hlt⟩
  · intro y hy hy'
    rcases List.mem_append.1 hy' with h | h
    · exact ht.disjoint y h hy
    · rw [List.mem_singleton.1 h] at hy; exact hx hy

theorem line_dropGroup (ht : p.Tidy) {l g : Str} (hh : '#' ∉ l) (hs : DropsGroup g l) (hg : g ∉ p.groupList.map (·.name))
    (he : ∀ e, p.environment = some e → g ≠ '^' :: e) :
    p.handleLine l = ({ p with excludedGroupList := p.excludedGroupList ++ [⟨g, .default⟩] }, none) := by
  obtain ⟨l', h1, h2⟩ := handleLine_of_strip hh hs p
  rw [h2, Packages.add, Packages.addLoop, addLine_eq, kind_dropAt.2 h1]
  simp only
  rw [if_neg]
  · simp only [Packages.addLoop, Packages.addFinish, List.append_nil, List.nil_append]
    rw [filter_eq_self_of (m := []) (by simp), filter_eq_self_of (fun x hx hx' => ht.disjoint x hx' hx), sortedSet_of_ascending ht.packages, sortedSet_of_ascending ht.excluded]
    have : p.groupList.filter (fun x => x.name ∉ [({ name := g } : Group)].map (·.name)) = p.groupList := by
      rw [List.filter_eq_self]
      intro x hx
      simp only [List.map_cons, List.map_nil, List.mem_singleton, decide_not, Bool.not_eq_eq_eq_not, Bool.not_true, decide_eq_false_iff_not]
      rintro e; exact hg (e ▸ List.mem_map_of_mem (f := (·.name)) hx)
    rw [this]
  · rintro ⟨a, b⟩
    exact he _ b (head_tail a)

theorem line_drop (ht : p.Tidy) {l x : Str} (hh : '#' ∉ l) (hs : DropsPkg x l) (hx : x ∉ p.packageList) (hlt : ∀ y ∈ p.excludedList, y < x) :
    p.handleLine l = ({ p with excludedList := p.excludedList ++ [x] }, none) := by
  obtain ⟨l', h1, h2⟩ := handleLine_of_strip hh hs.1 p
  have hk : lineKind (strip l') = .drop x := kind_drop.2 ⟨h1, hs.2⟩
  rw [h2, Packages.add, Packages.addLoop, addLine_eq, hk]
  simp only [Packages.addLoop, Packages.addFinish, filter_groups_nil, List.append_nil, List.nil_append]
  rw [filter_eq_self_of (l := p.packageList) (m := [x]) (by
    intro y hy hy'; rw [List.mem_singleton.1 hy'] at hy; exact hx hy)]
  rw [filter_eq_self_of (fun x hx hx' => ht.disjoint x hx' hx), sortedSet_of_ascending ht.packages, sortedSet_of_ascending]
  rw [List.pairwise_append]
  exact ⟨ht.excluded, List.pairwise_singleton _ _, by simpa using hlt⟩

/-- A name that can stand at the end of a line. -/
def LineName (x : Str) : Prop := NoBreak x ∧ '#' ∉ x ∧ ∀ c, x.getLast? = some c → isSpace c = false

instance (x : Str) : Decidable (LineName x) := by
  unfold LineName
  have : Decidable (∀ c, x.getLast? = some c → isSpace c = false) :=
    decidable_of_iff (x.getLast?.all (fun c => isSpace c = false) = true) (by simp [Option.all_eq_true])
  infer_instance

theorem strip_line {x : Str} {c : Char} (hc : isSpace c = false) (hx : ∀ d, (c :: x).getLast? = some d → isSpace d = false) :
    strip (c :: x ++ c!"\n") = c :: x := by
  have := strip_padded (a := []) (s := c :: x) (b := c!"\n") rfl rfl ⟨fun d hd => by simp at hd; subst hd; exact hc, hx⟩
  simpa using this

theorem getLast?_cons_of {P : Char → Prop} {c : Char} {x : Str} (hc : P c) (hx : ∀ d, x.getLast? = some d → P d) : ∀ d, (c :: x).getLast? = some d → P d := by
  intro d hd
  cases x with
  | nil => simp at hd; subst hd; exact hc
  | cons y t => rw [List.getLast?_cons_cons] at hd; exact hx d hd

/-- A line that is not blank, not a comment and does not start with `%`. -/
theorem plainLine_of_head {tags : List Str} (ht : ∀ t ∈ tags, t.head? = some '%') {c : Char} (x : Str) (hs : isSpace c = false) (hh : c ≠ '#') (hp : c ≠ '%') :
    PlainLine tags (c :: x) ∧ isBlankOrComment (c :: x) = false := by
  refine ⟨⟨by simp, fun w hw => ?_⟩, notBlank_of_head hs hh⟩
  have hw0 : w.head? = some c := by
    obtain ⟨r, hr⟩ := splitWs_head hw
    have hl : lstrip (c :: x) = c :: x := lstrip_eq_self (fun d hd => by simp at hd; subst hd; exact hs)
    rw [hl] at hr
    cases w with
    | nil =>
      have hm := List.mem_of_head? hw
      have := splitWs_isWord _ _ hm
      exact absurd rfl this.1
    | cons d t => simp only [List.cons_append, List.cons.injEq] at hr; rw [hr.1]; rfl
  refine ⟨fun hm => ?_, ?_, ?_⟩
  · have := ht w hm; rw [hw0] at this; simp at this; exact hp this
  · rintro rfl; simp at hw0; exact hp hw0.symm
  · rintro rfl; simp at hw0; exact hp hw0.symm

/-- Selections that can be written and read back. -/
structure Packages.Writable (p : Packages) : Prop where
  langs : ∀ s, p.instLangs = some s → BareValue s
  tidy : p.Tidy
  /-- `--default` drops the environment -/
  env : ∀ e, p.environment = some e → e ≠ [] ∧ LineName e ∧ p.default = false
  /-- group names are words, none looking like an option, separated by single blanks -/
  groups : ∀ g ∈ p.groupList, ∃ ws, g.name = joinWith c!" " ws ∧ (∀ w ∈ ws, IsWord w ∧ '#' ∉ w ∧ startsWith w c!"-" = false) ∧ g.name.head? ≠ some '^'
  /-- no group is listed twice -/
  distinct : (p.groupList.map (·.name)).Nodup
  packages : ∀ x ∈ p.packageList, LineName x ∧ ∃ c t, x = c :: t ∧ c ≠ '@' ∧ c ≠ '-' ∧ c ≠ '%' ∧ isSpace c = false
  /-- groups are excluded without options, and not at the same time selected -/
  excludedGroups : ∀ g ∈ p.excludedGroupList, g.mode = .default ∧ LineName g.name ∧ g.name ∉ p.groupList.map (·.name) ∧
    ∀ e, p.environment = some e → g.name ≠ '^' :: e
  excluded : ∀ x ∈ p.excludedList, LineName x ∧ ∃ c t, x = c :: t ∧ c ≠ '@'

theorem lineBreak_space {c : Char} (h : isLineBreak c = true) : isSpace c = true := by
  unfold isLineBreak at h
  unfold isSpace
  simp only [Bool.or_eq_true, Bool.and_eq_true, decide_eq_true_eq, beq_iff_eq] at h ⊢
  omega

/-- One line in front of others. -/
theorem feed_one {c : Char} {x : Str} {q : Packages} {rest : List Str} (hs : isSpace c = false) (hh : c ≠ '#')
    (h : p.handleLine (c :: x ++ c!"\n") = (q, none)) : feedPackages ((c :: x ++ c!"\n") :: rest) p = feedPackages rest q := by
  rw [feedPackages, List.cons_append, notBlank_of_head hs hh]
  rw [List.cons_append] at h
  rw [h]
  rfl

theorem feed_groups {gs : List Group} {rest : List Str} (ht : p.Tidy) (hd : ((p.groupList ++ gs).map (·.name)).Nodup)
    (hg : ∀ g ∈ gs, ∃ ws, g.name = joinWith c!" " ws ∧ (∀ w ∈ ws, IsWord w ∧ '#' ∉ w ∧ startsWith w c!"-" = false) ∧ g.name.head? ≠ some '^') :
    feedPackages (gs.map (fun g => g.str ++ c!"\n") ++ rest) p = feedPackages rest { p with groupList := p.groupList ++ gs } := by
  induction gs generalizing p with
  | nil => simp
  | cons g t ih =>
    obtain ⟨ws, h1, h2, h3⟩ := hg g (by simp)
    have hstr : g.str = '@' :: (joinWith c!" " ws ++ g.mode.suffix) := by rw [Group.str_eq, h1]; simp
    have hlast : ∀ d, (joinWith c!" " ws ++ g.mode.suffix).getLast? = some d → isSpace d = false := by
      intro d hd
      cases hm : g.mode with
      | default =>
        rw [hm] at hd
        simp only [GroupMode.suffix, List.append_nil] at hd
        cases hws : ws.reverse with
        | nil => rw [List.reverse_eq_nil_iff] at hws; subst hws; simp [joinWith] at hd
        | cons w r =>
          have hwr : ws = r.reverse ++ [w] := by rw [← List.reverse_reverse ws, hws]; simp
          have hww := (h2 w (by rw [hwr]; simp)).1
          have : ∃ a, joinWith c!" " ws = a ++ w := by
            rw [hwr]
            clear hws hwr hd h1 h2 h3 hww
            generalize r.reverse = l
            induction l with
            | nil => exact ⟨[], rfl⟩
            | cons y l ih =>
              obtain ⟨a, ha⟩ := ih
              refine ⟨y ++ c!" " ++ a, ?_⟩
              rw [List.cons_append]
              cases hl : l ++ [w] with
              | nil => simp at hl
              | cons z l' => rw [joinWith, ← hl, ha]; simp
          obtain ⟨a, ha⟩ := this
          rw [ha, List.getLast?_append] at hd
          have hne := hww.1
          cases hwl : w.getLast? with
          | none => rw [List.getLast?_eq_none_iff] at hwl; exact absurd hwl hne
          | some e =>
            rw [hwl] at hd
            simp only [Option.some_or, Option.some.injEq] at hd
            subst hd
            exact hww.2 _ (List.mem_of_getLast? hwl)
      | required => rw [hm] at hd; simp only [GroupMode.suffix, List.getLast?_append] at hd; simp at hd; subst hd; decide
      | all => rw [hm] at hd; simp only [GroupMode.suffix, List.getLast?_append] at hd; simp at hd; subst hd; decide
    have hstrip : strip (g.str ++ c!"\n") = c!"@" ++ joinWith c!" " ws ++ g.mode.suffix := by
      rw [hstr, strip_line (by decide) (getLast?_cons_of (by decide) hlast)]; simp
    have hhash : '#' ∉ g.str ++ c!"\n" := by
      rw [hstr]
      have : '#' ∉ joinWith c!" " ws := by
        cases ws with
        | nil => simp [joinWith]
        | cons a b =>
          rw [joinWith_cons_blank]
          intro hm
          rcases List.mem_append.1 hm with hm | hm
          · exact (h2 a (by simp)).2.1 hm
          · obtain ⟨y, hy, hc⟩ := List.mem_flatten.1 hm
            obtain ⟨z, hz, rfl⟩ := List.mem_map.1 hy
            rcases List.mem_append.1 hc with hc | hc
            · simp at hc
            · exact (h2 z (by simp [hz])).2.1 hc
      have h' : '#' ∉ g.mode.suffix := by cases g.mode <;> decide
      simp [this, h']
    have hnew : joinWith c!" " ws ∉ p.groupList.map (·.name) := by
      rw [← h1]
      rw [List.map_append, List.nodup_append] at hd
      intro hm
      exact hd.2.2 _ hm g.name (by simp) rfl
    have hhead : (joinWith c!" " ws ++ g.mode.suffix).head? ≠ some '^' := by
      rw [h1] at h3
      cases hj : joinWith c!" " ws with
      | nil => cases g.mode <;> simp [GroupMode.suffix]
      | cons a b => rw [hj] at h3; simpa using h3
    have hline := line_group ht hhash hstrip (fun w hw => ⟨(h2 w hw).1, (h2 w hw).2.2⟩) hhead hnew
    have hgg : (⟨joinWith c!" " ws, g.mode⟩ : Group) = g := by rw [← h1]
    rw [hgg] at hline
    rw [List.map_cons, List.cons_append]
    rw [hstr] at hline ⊢
    rw [feed_one (by decide) (by decide) hline, ih (p := { p with groupList := p.groupList ++ [g] }) ⟨ht.1, ht.2, ht.3⟩ (by simpa using hd) (fun x hx => hg x (by simp [hx]))]
    simp

theorem feed_pkgs {xs : List Str} {rest : List Str} (ht : p.Tidy) (hs : (p.packageList ++ xs).Pairwise (· < ·)) (hd : ∀ x ∈ xs, x ∉ p.excludedList)
    (hg : ∀ x ∈ xs, LineName x ∧ ∃ c t, x = c :: t ∧ c ≠ '@' ∧ c ≠ '-' ∧ c ≠ '%' ∧ isSpace c = false) :
    feedPackages (xs.map (· ++ c!"\n") ++ rest) p = feedPackages rest { p with packageList := p.packageList ++ xs } := by
  induction xs generalizing p with
  | nil => simp
  | cons x t ih =>
    obtain ⟨⟨hb, hh, hl⟩, c, y, rfl, h1, h2, h3, h4⟩ := hg x (by simp)
    have hp := List.pairwise_append.1 hs
    have hline := line_pkg ht (l := c :: y ++ c!"\n") (x := c :: y) (by simp only [List.mem_append, not_or]; exact ⟨hh, by decide⟩)
      ⟨strip_line h4 hl, by simp, by simpa using h1, by simpa using h2⟩ (hd _ (by simp)) (fun z hz => hp.2.2 z hz _ (by simp))
    have hc : c ≠ '#' := fun e => hh (by simp [e])
    rw [List.map_cons, List.cons_append, feed_one h4 hc hline, ih (p := { p with packageList := p.packageList ++ [c :: y] })
      ⟨?_, ht.2, ?_⟩ (by simpa using hs) (fun x hx => hd x (by simp [hx])) (fun x hx => hg x (by simp [hx]))]
    · simp
    · have : (p.packageList ++ [c :: y]).Pairwise (· < ·) := by
        rw [List.pairwise_append]
        exact ⟨ht.packages, List.pairwise_singleton _ _, fun z hz w hw => by rw [List.mem_singleton.1 hw]; exact hp.2.2 z hz _ (by simp)⟩
      exact this
    · intro z hz
      rcases List.mem_append.1 hz with hz | hz
      · exact ht.disjoint z hz
      · rw [List.mem_singleton.1 hz]; exact hd _ (by simp)

theorem feed_dropGroups {gs : List Group} {rest : List Str} (ht : p.Tidy)
    (hg : ∀ g ∈ gs, g.mode = .default ∧ LineName g.name ∧ g.name ∉ p.groupList.map (·.name) ∧ ∀ e, p.environment = some e → g.name ≠ '^' :: e) :
    feedPackages (gs.map (fun g => c!"-" ++ g.str ++ c!"\n") ++ rest) p = feedPackages rest { p with excludedGroupList := p.excludedGroupList ++ gs } := by
  induction gs generalizing p with
  | nil => simp
  | cons g t ih =>
    obtain ⟨hm, ⟨hb, hh, hl⟩, h3, h4⟩ := hg g (by simp)
    have hstr : c!"-" ++ g.str = '-' :: '@' :: g.name := by rw [Group.str_eq, hm]; simp [GroupMode.suffix]
    have hline := line_dropGroup ht (l := '-' :: ('@' :: g.name) ++ c!"\n") (g := g.name)
      (by simp only [List.mem_append, List.mem_cons, not_or]; exact ⟨⟨by decide, by decide, hh⟩, by decide⟩)
      (by unfold DropsGroup; rw [strip_line (by decide) (getLast?_cons_of (by decide) (getLast?_cons_of (by decide) hl))]; simp) h3 h4
    have hgg : (⟨g.name, .default⟩ : Group) = g := by rw [← hm]
    rw [hgg] at hline
    rw [List.map_cons, List.cons_append, hstr, feed_one (by decide) (by decide) hline,
      ih (p := { p with excludedGroupList := p.excludedGroupList ++ [g] }) ⟨ht.1, ht.2, ht.3⟩ (fun x hx => hg x (by simp [hx]))]
    simp

theorem feed_drops {xs : List Str} {rest : List Str} (ht : p.Tidy) (hs : (p.excludedList ++ xs).Pairwise (· < ·)) (hd : ∀ x ∈ xs, x ∉ p.packageList)
    (hg : ∀ x ∈ xs, LineName x ∧ ∃ c t, x = c :: t ∧ c ≠ '@') :
    feedPackages (xs.map (fun x => c!"-" ++ x ++ c!"\n") ++ rest) p = feedPackages rest { p with excludedList := p.excludedList ++ xs } := by
  induction xs generalizing p with
  | nil => simp
  | cons x t ih =>
    obtain ⟨⟨hb, hh, hl⟩, c, y, rfl, h1⟩ := hg x (by simp)
    have hp := List.pairwise_append.1 hs
    have hline := line_drop ht (l := '-' :: (c :: y) ++ c!"\n") (x := c :: y)
      (by rw [List.mem_append, List.mem_cons]; rintro ((h | h) | h) <;> first | exact hh h | exact absurd h (by decide))
      ⟨strip_line (by decide) (getLast?_cons_of (by decide) hl), by simp, by simpa using h1⟩ (hd _ (by simp)) (fun z hz => hp.2.2 z hz _ (by simp))
    rw [List.map_cons, List.cons_append, show c!"-" ++ (c :: y) = '-' :: (c :: y) from rfl, feed_one (by decide) (by decide) hline, ih (p := { p with excludedList := p.excludedList ++ [c :: y] })
      ⟨ht.1, ?_, ?_⟩ (by simpa using hs) (fun x hx => hd x (by simp [hx])) (fun x hx => hg x (by simp [hx]))]
    · simp
    · have : (p.excludedList ++ [c :: y]).Pairwise (· < ·) := by
        rw [List.pairwise_append]
        exact ⟨ht.excluded, List.pairwise_singleton _ _, fun z hz w hw => by rw [List.mem_singleton.1 hw]; exact hp.2.2 z hz _ (by simp)⟩
      exact this
    · intro z hz hz'
      rcases List.mem_append.1 hz' with hz' | hz'
      · exact ht.disjoint z hz hz'
      · rw [List.mem_singleton.1 hz'] at hz; exact hd _ (by simp) hz

/-- The lines written between header and `%end`. -/
def Packages.body (p : Packages) : List Str :=
  (match p.environment with | some e => [c!"@^" ++ e ++ c!"\n"] | none => [])
  ++ (sortBy Group.lt p.groupList).map (fun g => g.str ++ c!"\n")
  ++ p.packageList.map (· ++ c!"\n")
  ++ (sortBy Group.lt p.excludedGroupList).map (fun g => c!"-" ++ g.str ++ c!"\n")
  ++ p.excludedList.map (fun x => c!"-" ++ x ++ c!"\n")

theorem sortBy_ascending {l : List Str} (h : l.Pairwise (· < ·)) : sortBy strLt l = l := by
  apply sortBy_of_sorted
  refine h.imp ?_
  intro a b hab
  rw [strLt_false]
  exact List.lt_asymm hab

theorem content_body (h : p.Writable) : p.content.1 = p.body.flatten := by
  unfold Packages.content Packages.body
  simp only [sortBy_ascending h.tidy.packages, sortBy_ascending h.tidy.excluded, List.flatten_append]
  congr 4
  cases he : p.environment with
  | none => simp
  | some e =>
    obtain ⟨h1, _, h2⟩ := h.env e he
    simp [h1, h2]

theorem feed_body (h : p.Writable) {q : Packages} (hq : q.packageList = [] ∧ q.excludedList = [] ∧ q.groupList = [] ∧ q.excludedGroupList = [] ∧ q.environment = none) :
    feedPackages (p.body ++ [c!"\n"]) q =
      ({ q with environment := p.environment, groupList := sortBy Group.lt p.groupList, packageList := p.packageList,
                excludedGroupList := sortBy Group.lt p.excludedGroupList, excludedList := p.excludedList }, none) := by
  obtain ⟨q1, q2, q3, q4, q5⟩ := hq
  have tq : ∀ q : Packages, q.packageList = [] → q.excludedList = [] → q.Tidy := fun q a b => ⟨by rw [a]; exact .nil, by rw [b]; exact .nil, by simp [a]⟩
  have pg := sortBy_perm (lt := Group.lt) p.groupList
  have px := sortBy_perm (lt := Group.lt) p.excludedGroupList
  have hlast : ∀ q : Packages, feedPackages [c!"\n"] q = (q, none) := fun q => by
    rw [feedPackages, show isBlankOrComment c!"\n" = true from by decide]; rfl
  -- all but the environment
  have main : ∀ q : Packages, q.packageList = [] → q.excludedList = [] → q.groupList = [] → q.excludedGroupList = [] → q.environment = p.environment →
      feedPackages ((sortBy Group.lt p.groupList).map (fun g => g.str ++ c!"\n") ++ (p.packageList.map (· ++ c!"\n")
        ++ ((sortBy Group.lt p.excludedGroupList).map (fun g => c!"-" ++ g.str ++ c!"\n") ++ (p.excludedList.map (fun x => c!"-" ++ x ++ c!"\n") ++ [c!"\n"])))) q =
      ({ q with groupList := sortBy Group.lt p.groupList, packageList := p.packageList,
                excludedGroupList := sortBy Group.lt p.excludedGroupList, excludedList := p.excludedList }, none) := by
    intro q a1 a2 a3 a4 a5
    rw [feed_groups (tq q a1 a2) (by rw [a3, List.nil_append]; exact (pg.map _).nodup_iff.2 h.distinct) (fun g hg => h.groups g (pg.mem_iff.1 hg)), a3, List.nil_append]
    rw [feed_pkgs (p := { q with groupList := sortBy Group.lt p.groupList }) (tq _ a1 a2) (by show (q.packageList ++ p.packageList).Pairwise _; rw [a1]; exact h.tidy.packages) (by show ∀ x ∈ _, x ∉ q.excludedList; rw [a2]; simp) h.packages]
    have e1 : q.packageList ++ p.packageList = p.packageList := by rw [a1]; rfl
    simp only [e1]
    have t2 : ({ q with groupList := sortBy Group.lt p.groupList, packageList := p.packageList } : Packages).Tidy :=
      ⟨h.tidy.packages, by show q.excludedList.Pairwise _; rw [a2]; exact .nil, by show ∀ x ∈ _, x ∉ q.excludedList; rw [a2]; simp⟩
    rw [feed_dropGroups t2 (fun g hg => by
      obtain ⟨x1, x2, x3, x4⟩ := h.excludedGroups g (px.mem_iff.1 hg)
      exact ⟨x1, x2, fun hm => x3 ((pg.map _).mem_iff.1 hm), fun e he => x4 e (a5 ▸ he)⟩)]
    have e2 : q.excludedGroupList ++ sortBy Group.lt p.excludedGroupList = sortBy Group.lt p.excludedGroupList := by rw [a4]; rfl
    simp only [e2]
    rw [feed_drops (p := { q with groupList := sortBy Group.lt p.groupList, packageList := p.packageList, excludedGroupList := sortBy Group.lt p.excludedGroupList }) ⟨t2.1, t2.2, t2.3⟩ (by show (q.excludedList ++ p.excludedList).Pairwise _; rw [a2]; exact h.tidy.excluded)
      (fun x hx hx' => h.tidy.disjoint x hx' hx) h.excluded]
    have e3 : q.excludedList ++ p.excludedList = p.excludedList := by rw [a2]; rfl
    simp only [e3]
    rw [hlast]
  unfold Packages.body
  simp only [List.append_assoc]
  cases he : p.environment with
  | none =>
    simp only [List.nil_append]
    have := main q q1 q2 q3 q4 (q5.trans he.symm)
    simp only [List.append_assoc] at this
    rw [this, ← q5]
  | some e =>
    obtain ⟨_, ⟨hb, hh, hl⟩, _⟩ := h.env e he
    have hline := line_env (tq q q1 q2) (l := '@' :: ('^' :: e) ++ c!"\n") (e := e)
      (by simp only [List.mem_append, List.mem_cons, not_or]; exact ⟨⟨by decide, by decide, hh⟩, by decide⟩)
      (by rw [strip_line (by decide) (getLast?_cons_of (by decide) (getLast?_cons_of (by decide) hl))]; simp)
    simp only
    rw [List.singleton_append, show c!"@^" ++ (e ++ c!"\n") = '@' :: ('^' :: e) ++ c!"\n" from rfl, feed_one (by decide) (by decide) hline]
    have := main { q with environment := some e } q1 q2 q3 q4 he.symm
    simp only [List.append_assoc] at this
    rw [this]

theorem pkgOpt_bare (h : p.Writable) : ∀ o ∈ p.opts, o.tok.text ≠ [] ∧ BareValue o.tok.text := by
  intro o ho
  have hi : ∀ n : Int, BareValue (intStr n) := by
    intro n c hc
    rcases intStr_chars n c hc with h | rfl
    · have hd : ∀ d, isDigit d = false → c ≠ d := by rintro d hd rfl; rw [hd] at h; cases h
      refine ⟨⟨?_, ?_, hd _ (by decide), fun _ => hd _ (by decide)⟩, ?_⟩
      · simp [shWhite, hd ' ' (by decide), hd '\t' (by decide), hd '\r' (by decide), hd '\n' (by decide)]
      · simp [shQuote, hd '\'' (by decide), hd '"' (by decide)]
      · unfold isDigit at h
        unfold isLineBreak
        simp only [Bool.and_eq_true, decide_eq_true_eq] at h
        simp only [Bool.or_eq_false_iff, Bool.and_eq_false_imp, decide_eq_true_eq, decide_eq_false_iff_not, beq_eq_false_iff_ne]
        omega
    · decide
  cases o with
  | instLangs s =>
    refine ⟨by simp [PkgOpt.tok, Tok.text], ?_⟩
    exact bareValue_append (a := c!"--inst-langs") (by decide) (bareValue_append (a := c!"=") (by decide) (h.langs s ((mem_opts_flag p _).1 ho)))
  | timeout n => exact ⟨by simp [PkgOpt.tok, Tok.text], bareValue_append (a := c!"--timeout") (by decide) (bareValue_append (a := c!"=") (by decide) (hi n))⟩
  | retries n => exact ⟨by simp [PkgOpt.tok, Tok.text], bareValue_append (a := c!"--retries") (by decide) (bareValue_append (a := c!"=") (by decide) (hi n))⟩
  | _ => exact ⟨by simp [PkgOpt.tok, Tok.text], by decide⟩

/-- The header line that is written. -/
def Packages.hdr (p : Packages) : Str := joinWith c!" " (c!"%packages" :: p.opts.map (·.tok.text)) ++ c!"\n"

theorem packages_headerLine (h : p.Writable) : HeaderLine p.hdr c!"%packages" (p.opts.map (·.tok.text)) := by
  refine ⟨?_, bare_shlex ?_, rfl, by decide, by decide⟩
  · unfold Packages.hdr
    rw [joinWith_cons_blank]
    exact notBlank_of_head (by decide) (by decide)
  · intro x hx
    rcases List.mem_cons.1 hx with rfl | hx
    · exact ⟨by simp, by decide⟩
    · obtain ⟨o, ho, rfl⟩ := List.mem_map.1 hx
      exact ⟨(pkgOpt_bare h o ho).1, fun c hc => ((pkgOpt_bare h o ho).2 c hc).1⟩

theorem lineName_cons {x : Str} {c : Char} (hx : NoBreak x) (hc : isLineBreak c = false) : NoBreak (c :: x) := by
  intro d hd
  rcases List.mem_cons.1 hd with rfl | hd
  · exact hc
  · exact hx d hd

/-- Each written line starts with a character that is not white space, `#` or `%`, and is one line. -/
theorem body_lines (h : p.Writable) : ∀ l ∈ p.body, ∃ c x, l = c :: x ++ c!"\n" ∧ isSpace c = false ∧ c ≠ '#' ∧ c ≠ '%' ∧ NoBreak (c :: x) := by
  intro l hl
  unfold Packages.body at hl
  simp only [List.mem_append] at hl
  have pg := sortBy_perm (lt := Group.lt) p.groupList
  have px := sortBy_perm (lt := Group.lt) p.excludedGroupList
  rcases hl with (((hl | hl) | hl) | hl) | hl
  · split at hl
    · rename_i e he
      rw [List.mem_singleton.1 hl]
      exact ⟨'@', '^' :: e, rfl, by decide, by decide, by decide, lineName_cons (lineName_cons (h.env e he).2.1.1 (by decide)) (by decide)⟩
    · simp at hl
  · obtain ⟨g, hg, rfl⟩ := List.mem_map.1 hl
    obtain ⟨ws, h1, h2, _⟩ := h.groups g (pg.mem_iff.1 hg)
    refine ⟨'@', g.name ++ g.mode.suffix, by rw [Group.str_eq]; simp, by decide, by decide, by decide, lineName_cons ?_ (by decide)⟩
    intro c hc
    rcases List.mem_append.1 hc with hc | hc
    · refine noBreak_join (words := ws) (fun w hw d hd => ?_) c (h1 ▸ hc)
      cases hb : isLineBreak d with
      | false => rfl
      | true => have := (h2 w hw).1.2 d hd; rw [lineBreak_space hb] at this; cases this
    · have : NoBreak g.mode.suffix := by cases g.mode <;> decide
      exact this c hc
  · obtain ⟨x, hx, rfl⟩ := List.mem_map.1 hl
    obtain ⟨⟨hb, hh, _⟩, c, t, rfl, _, _, h3, h4⟩ := h.packages x hx
    exact ⟨c, t, rfl, h4, fun e => hh (by simp [e]), h3, hb⟩
  · obtain ⟨g, hg, rfl⟩ := List.mem_map.1 hl
    obtain ⟨hm, ⟨hb, _, _⟩, _⟩ := h.excludedGroups g (px.mem_iff.1 hg)
    exact ⟨'-', '@' :: g.name, by rw [Group.str_eq, hm]; simp [GroupMode.suffix], by decide, by decide, by decide, lineName_cons (lineName_cons hb (by decide)) (by decide)⟩
  · obtain ⟨x, hx, rfl⟩ := List.mem_map.1 hl
    obtain ⟨⟨hb, _, _⟩, _⟩ := h.excluded x hx
    exact ⟨'-', x, rfl, by decide, by decide, by decide, lineName_cons hb (by decide)⟩

/-- The written selection as parts of a file. -/
def Packages.items (p : Packages) : List Item := [.skip c!"\n", .pkgs (p.opts.map (·.tok.text)) p.hdr (p.body ++ [c!"\n"]) c!"%end\n"]

theorem packages_str_eq (h : p.Writable) (hu : ¬ p.Untouched) {ver : Nat} (hv : ver ≥ Version.F8) :
    (p.str ver).1 = c!"\n" ++ p.hdr ++ p.body.flatten ++ c!"\n" ++ c!"%end\n" := by
  have hne := fun e => hu ((C23_empty_iff ver p).1 e)
  unfold Packages.str at hne ⊢
  simp only at hne ⊢
  split at hne
  · exact absurd rfl hne
  · rename_i hc
    rw [if_neg hc, if_pos hv]
    simp only
    have e : p.content.2.headerOpts = p.headerOpts := rfl
    rw [content_body h, e, headerOpts_eq, Packages.hdr, joinWith_cons_blank]
    simp

theorem packages_lines (h : p.Writable) (hu : ¬ p.Untouched) {ver : Nat} (hv : ver ≥ Version.F8) :
    splitLines (p.str ver).1 = p.items.flatMap Item.lines := by
  rw [packages_str_eq h hu hv]
  have e1 : c!"\n" ++ p.hdr ++ p.body.flatten ++ c!"\n" ++ c!"%end\n" = [] ++ '\n' :: (p.hdr ++ (p.body.flatten ++ ([] ++ '\n' :: (c!"%end" ++ '\n' :: [])))) := by simp
  rw [e1, splitLines_line (by simp [NoBreak])]
  unfold Packages.hdr
  rw [List.append_assoc, List.singleton_append, splitLines_line, splitLines_append_lines, splitLines_line (by simp [NoBreak]), splitLines_line (by decide)]
  · simp [Packages.items, Item.lines, Packages.hdr, splitLines]
  · intro l hl
    obtain ⟨c, x, rfl, _, _, _, hb⟩ := body_lines h l hl
    exact ⟨c :: x, hb, rfl⟩
  · apply noBreak_join
    intro x hx
    rcases List.mem_cons.1 hx with rfl | hx
    · decide
    · obtain ⟨o, ho, rfl⟩ := List.mem_map.1 hx
      exact fun c hc => ((pkgOpt_bare h o ho).2 c hc).2

theorem packages_feed (h : p.Writable) : ∀ q : Packages, (feedPackages (p.body ++ [c!"\n"]) q).2 = none := fun q =>
  feedPackages_err _ {} q (by rw [feed_body h ⟨rfl, rfl, rfl, rfl, rfl⟩])

theorem packages_wf (h : p.Writable) {v : Nat} {tags : List Str} (htags : ∀ t ∈ tags, t.head? = some '%') (hs : p.Supported v) : ∀ it ∈ p.items, it.WF v tags := by
  intro it hit
  unfold Packages.items at hit
  simp only [List.mem_cons, List.not_mem_nil, or_false] at hit
  rcases hit with rfl | rfl
  · exact ⟨by simp, by decide⟩
  · refine ⟨packages_headerLine h, fun n q => header_err _ n n _ {} q (by rw [packages_header hs]), ?_, packages_feed h, by decide +kernel⟩
    intro l hl
    rcases List.mem_append.1 hl with hl | hl
    · obtain ⟨c, x, rfl, h1, h2, h3, _⟩ := body_lines h l hl
      exact (plainLine_of_head htags (x ++ c!"\n") h1 h2 h3).1
    · rw [List.mem_singleton.1 hl]; exact ⟨by simp, fun w hw => by simp [firstWord, splitWs, isSpace] at hw⟩

theorem packages_noIncl (p : Packages) : ∀ it ∈ p.items, ∀ l f, it ≠ .incl l f := by
  intro it hit l f
  unfold Packages.items at hit
  simp only [List.mem_cons, List.not_mem_nil, or_false] at hit
  rcases hit with rfl | rfl <;> simp

/-- C22, the part that holds: writing a selection and reading the text back with a new parser gives
the same selection (lists possibly in another order), provided that the version has the options used
and that the selection can be written at all: `--default` without an environment, `--nobase` or
`--nocore`, groups not selected and excluded at the same time, names that fit on a line.
Missing: selections that break these conditions (`C22_environment_lost`, `C22_group_lost`). -/
theorem C22_roundtrip_partial {C : Type} {cfg : Cfg} {w : World} {disp : Disp C} {d : Nat} {s : PState C} (hc : Clean s) (hp : s.packages = {})
    (htags : ∀ t ∈ s.tags, t.head? = some '%') (h : p.Writable) (hs : p.Supported cfg.version) (hu : ¬ p.Untouched)
    {ver : Nat} (hv : ver ≥ Version.F8) :
    let r := readString cfg w disp d (p.str ver).1 s
    r.2 = none ∧ ({ p with seen := true } : Packages).Reordered r.1.packages ∧
    r.1.cmds = s.cmds ∧ r.1.scripts = s.scripts ∧ r.1.nullStrings = s.nullStrings := by
  obtain ⟨hview, herr, _, _⟩ := readString_flat (cfg := cfg) (w := w) (disp := disp) (d := d) hc (packages_lines h hu hv) (packages_noIncl p) (packages_wf h htags hs)
  have hex : execAll cfg disp (numbered 0 p.items) s.view =
      ({ s.view with packages := (feedPackages (p.body ++ [c!"\n"]) (({} : Packages).header cfg.version 2 (p.opts.map (·.tok.text))).1).1,
                     warnings := s.warnings ++ packagesWarnings cfg.version 2 (p.opts.map (·.tok.text)) {} }, none) := by
    simp only [Packages.items, numbered, execAll, Item.exec]
    rw [if_neg (by decide)]
    have : s.view.packages = {} := hp
    rw [this]
    rfl
  rw [hex] at hview herr
  rw [packages_header hs, feed_body h ⟨rfl, rfl, rfl, rfl, rfl⟩] at hview
  clear hex
  generalize readString cfg w disp d (p.str ver).1 s = r at *
  have hpk : r.1.packages = _ := congrArg View.packages hview
  refine ⟨herr, ?_, congrArg View.cmds hview, congrArg View.scripts hview, congrArg View.nullStrings hview⟩
  rw [hpk]
  exact ⟨sortBy_perm _, .refl _, sortBy_perm _, .refl _, rfl⟩

/-- C22 is false in general: `%packages --default` with an environment loses the environment. -/
theorem C22_environment_lost :
    let text := c!"%packages --default\n@^server\nvim\n%end\n"
    let s : PState (List Str) := { cmds := [] }
    let p := (readString { version := Version.F34 } sampleWorld picky 2 text s).1.packages
    p.environment = some c!"server" ∧
    (readString { version := Version.F34 } sampleWorld picky 2 (p.str Version.F34).1 s).2 = none ∧
    (readString { version := Version.F34 } sampleWorld picky 2 (p.str Version.F34).1 s).1.packages.environment = none := by
  decide +kernel

/-- C22 is false in general: a group that is excluded and then selected is lost. -/
theorem C22_group_lost :
    let text := c!"%packages\n-@core\n@core --optional\n%end\n"
    let s : PState (List Str) := { cmds := [] }
    let p := (readString { version := Version.F34 } sampleWorld picky 2 text s).1.packages
    p.groupList = [⟨c!"core", .all⟩] ∧
    (readString { version := Version.F34 } sampleWorld picky 2 (p.str Version.F34).1 s).2 = none ∧
    (readString { version := Version.F34 } sampleWorld picky 2 (p.str Version.F34).1 s).1.packages.groupList = [] := by
  decide +kernel

/-- A selection that uses everything. -/
def writablePackages : Packages :=
  { excludeDocs := true, nocore := true, ignoreMissing := true, instLangs := some c!"en:de", multiLib := true, excludeWeakdeps := true, timeout := some (-3), retries := some 10,
    ignoreBroken := true, environment := some c!"work station", groupList := [⟨c!"x y", .required⟩, ⟨c!"core", .all⟩], packageList := [c!"a b", c!"vim*"],
    excludedGroupList := [⟨c!"--z", .default⟩], excludedList := [c!"emacs", c!"nano -x"] }

theorem writablePackages_ok : writablePackages.Writable ∧ writablePackages.Supported Version.F34 ∧ ¬ writablePackages.Untouched := by
  refine ⟨⟨?_, ⟨by decide, by decide, by decide⟩, ?_, ?_, by decide, ?_, ?_, ?_⟩, ⟨?_, fun h => by cases h⟩, fun h => by rcases h.2 with h | h <;> simp [writablePackages] at h⟩
  · intro s hs; cases hs; decide
  · intro e he; cases he; decide
  · intro g hg
    simp only [writablePackages, List.mem_cons, List.not_mem_nil, or_false] at hg
    rcases hg with rfl | rfl
    · exact ⟨[c!"x", c!"y"], by decide, by decide, by decide⟩
    · exact ⟨[c!"core"], by decide, by decide, by decide⟩
  · intro x hx
    simp only [writablePackages, List.mem_cons, List.not_mem_nil, or_false] at hx
    rcases hx with rfl | rfl
    · exact ⟨by decide, _, _, rfl, by decide⟩
    · exact ⟨by decide, _, _, rfl, by decide⟩
  · intro g hg
    simp only [writablePackages, List.mem_cons, List.not_mem_nil, or_false] at hg
    subst hg
    exact ⟨rfl, by decide, by decide, fun e he => by cases he; decide⟩
  · intro x hx
    simp only [writablePackages, List.mem_cons, List.not_mem_nil, or_false] at hx
    rcases hx with rfl | rfl
    · exact ⟨by decide, _, _, rfl, by decide⟩
    · exact ⟨by decide, _, _, rfl, by decide⟩
  · intro o ho
    have := (mem_opts_flag _ _).1 ho
    cases o <;> first | trivial | (simp only [PkgOpt.Known]; decide) | (exact absurd this (by decide))

example : ({ writablePackages with seen := true } : Packages).Reordered
    (readString { version := Version.F34 } sampleWorld picky 2 (writablePackages.str Version.F34).1 { cmds := [] }).1.packages :=
  (C22_roundtrip_partial (s := { cmds := [] }) (cfg := { version := Version.F34 }) (clean_new _) rfl (by decide) writablePackages_ok.1 writablePackages_ok.2.1
    writablePackages_ok.2.2 (by decide)).2.1

end Ks
