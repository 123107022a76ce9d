import Verif.SectionLemmas
import Verif.ArgparseLine
import Verif.PackagesLemmas
/-!
# Well-formed kickstart files

A specification of what reading a file does, in terms of the parts a user writes (commands,
comments, sections, includes), and the proof that the parser does exactly that.
-/
namespace Ks
variable {C : Type}

/-! ## The parts of a file -/

/-- A part of a kickstart file with the lines it consists of. -/
inductive Item
  /-- blank line or comment -/
  | skip (l : Str)
  /-- a command and its words -/
  | cmd (l : Str) (words : List Str)
  /-- a script section with the options of its header -/
  | script (t : ScriptType) (opts : List ScriptOpt) (hdr : Str) (body : List Str) (endl : Str)
  /-- a `%packages` section with the words of its header -/
  | pkgs (args : List Str) (hdr : Str) (body : List Str) (endl : Str)
  /-- a section that is only passed through (such as `%addon`) with the words of its header -/
  | null (name : Str) (args : List Str) (hdr : Str) (body : List Str) (endl : Str)
  /-- `%include f` -/
  | incl (l f : Str)

/-- The physical lines. -/
def Item.lines : Item → List Str
  | .skip l => [l]
  | .cmd l _ => [l]
  | .script _ _ hdr body endl => hdr :: (body ++ [endl])
  | .pkgs _ hdr body endl => hdr :: (body ++ [endl])
  | .null _ _ hdr body endl => hdr :: (body ++ [endl])
  | .incl l _ => [l]

/-- A section that is only passed through: `%addon`, `%anaconda`, or unknown sections once they have
been seen. -/
def PassThrough (name : Str) : Prop := name ≠ c!"%packages" ∧ ∀ t : ScriptType, name ≠ t.tag

instance (name : Str) : Decidable (PassThrough name) :=
  decidable_of_iff (name ≠ c!"%packages" ∧ ∀ t ∈ [ScriptType.pre, .post, .traceback, .preinstall, .onerror], name ≠ t.tag)
    (by unfold PassThrough; exact and_congr_right fun _ => ⟨fun h t => h t (by cases t <;> simp), fun h t _ => h t⟩)

/-- The lines really are such a part, for a parser with the given section tags and version. -/
def Item.WF (v : Nat) (tags : List Str) : Item → Prop
  | .skip l => SkipLine l
  | .cmd l words => CmdLine l words
  | .script t opts hdr body endl =>
    HeaderLine hdr t.tag (opts.map ScriptOpt.text) ∧ (.nochroot ∈ opts → t = .post) ∧
    (∀ l ∈ body, PlainLine tags l) ∧ EndLine endl
  | .pkgs args hdr body endl =>
    HeaderLine hdr c!"%packages" args ∧ (∀ n (p : Packages), (p.header v n args).2 = none) ∧
    (∀ l ∈ body, PlainLine tags l) ∧ (∀ p, (feedPackages body p).2 = none) ∧ EndLine endl
  | .null name args hdr body endl =>
    HeaderLine hdr name args ∧ (name ∈ tags ∧ PassThrough name) ∧
    (∀ l ∈ body, PlainLine tags l) ∧ EndLine endl
  | .incl l f => IncludeLine l f

/-! ## What reading has to do -/

/-- What a user of the parser sees after reading. -/
structure View (C : Type) where
  cmds : C
  packages : Packages
  scripts : List Script
  nullStrings : List Str
  platform : Str
  errorsCount : Nat
  printed : List Exc
  warnings : List Warn
  /-- lines of blank script sections, waiting for the next script of that kind -/
  pending : ScriptType → List Str

/-- Lines in the buffer of the section for scripts of kind `t`. -/
def PState.pending (s : PState C) (t : ScriptType) : List Str :=
  match s.sec t.tag with
  | some (.script _ _ b) => b.body
  | _ => []

def PState.view (s : PState C) : View C :=
  { cmds := s.cmds, packages := s.packages, scripts := s.scripts, nullStrings := s.nullStrings, platform := s.platform,
    errorsCount := s.errorsCount, printed := s.printed, warnings := s.warnings, pending := s.pending }

/-- The effect of one part whose first line is line `n + 1`; an exception stops reading. -/
def Item.exec (cfg : Cfg) (disp : Disp C) (n : Nat) (v : View C) : Item → View C × Option Exc
  | .skip l => ({ v with platform := if l.take 10 = c!"#platform=" then strip (l.drop 10) else v.platform }, none)
  | .cmd l words =>
    match disp (n + 1) words l v.cmds with
    | (c, none) => ({ v with cmds := c }, none)
    | (c, some e) =>
      if cfg.errorsAreFatal then ({ v with cmds := c, errorsCount := v.errorsCount + 1 }, some e)
      else ({ v with cmds := c, errorsCount := v.errorsCount + 1, printed := v.printed ++ [e] }, none)
  | .script t opts _ body _ =>
    if BlankBody (v.pending t ++ body) then
      ({ v with pending := fun t' => if t' = t then v.pending t ++ body else v.pending t',
                warnings := v.warnings ++ scriptWarns cfg.version t }, none)
    else
      ({ v with scripts := v.scripts ++ [scriptOf t opts (n + 1) (v.pending t ++ body)],
                pending := fun t' => if t' = t then [] else v.pending t',
                warnings := v.warnings ++ scriptWarns cfg.version t }, none)
  | .pkgs args _ body _ =>
    ({ v with packages := (feedPackages body (v.packages.header cfg.version (n + 1) args).1).1,
              warnings := v.warnings ++ packagesWarnings cfg.version (n + 1) args v.packages }, none)
  | .null name args _ body _ => ({ v with nullStrings := v.nullStrings ++ [nullString (name :: args) body] }, none)
  | .incl _ _ => (v, none)

/-- The effect of a list of parts with the number of lines before each. -/
def execAll (cfg : Cfg) (disp : Disp C) : List (Nat × Item) → View C → View C × Option Exc
  | [], v => (v, none)
  | (n, it) :: rest, v =>
    match it.exec cfg disp n v with
    | (v, none) => execAll cfg disp rest v
    | (v, some e) => (v, some e)

/-- Number the parts of a file that has no includes, the first starting after line `n`. -/
def numbered : Nat → List Item → List (Nat × Item)
  | _, [] => []
  | n, it :: rest => (n, it) :: numbered (n + it.lines.length) rest

/-! ## The parser -/

/-- A parser between two reads that were not left inside a section: command state, the standard
sections registered and (apart from pending blank script lines) their buffers empty. -/
structure Clean (s : PState C) : Prop where
  state : s.state = none
  script : ∀ t : ScriptType, ∃ k b, s.sec t.tag = some (.script t k b) ∧ (t ≠ .post → b.chroot = false)
  packages : ∃ k, s.sec c!"%packages" = some (.packages k)
  null : ∀ name ∈ s.tags, PassThrough name → ∃ a, s.sec name = some (.null a [])

/-- A new parser is clean. -/
theorem clean_new (c : C) : Clean ({ cmds := c } : PState C) where
  state := rfl
  script := fun t => by cases t <;> exact ⟨_, _, rfl, fun _ => by first | rfl | contradiction⟩
  packages := ⟨_, rfl⟩
  null := fun name h hp => by
    simp only [PState.tags, setupSections, List.map_cons, List.map_nil, List.mem_cons, List.not_mem_nil, or_false] at h
    rcases h with rfl | rfl | rfl | rfl | rfl | rfl | rfl | rfl
    · exact absurd rfl (hp.2 .pre)
    · exact absurd rfl (hp.2 .preinstall)
    · exact absurd rfl (hp.2 .post)
    · exact absurd rfl (hp.2 .onerror)
    · exact absurd rfl (hp.2 .traceback)
    · exact absurd rfl hp.1
    · exact ⟨_, rfl⟩
    · exact ⟨_, rfl⟩

theorem tag_injective {t t' : ScriptType} (h : t.tag = t'.tag) : t = t' := by
  cases t <;> cases t' <;> first | rfl | exact absurd h (by decide)

/-- What is the same before and after reading some lines. -/
structure Keeps (s s' : PState C) : Prop where
  tags : s'.tags = s.tags
  depth : s'.includeDepth = s.includeDepth
  dirs : s'.currentdir = s.currentdir

theorem Keeps.refl (s : PState C) : Keeps s s := ⟨rfl, rfl, rfl⟩
theorem Keeps.trans {a b c : PState C} (h : Keeps a b) (h' : Keeps b c) : Keeps a c :=
  ⟨h'.tags.trans h.tags, h'.depth.trans h.depth, h'.dirs.trans h.dirs⟩

variable {cfg : Cfg} {disp : Disp C} {inc : Str → PState C → Res (PState C)}

/-- Replacing a section object by a clean one of the same kind keeps a parser clean. -/
theorem clean_set {s s' : PState C} (h : Clean s) {name : Str} {o : SecObj}
    (hsec : s'.sections = assocSet name o s.sections) (hst : s'.state = none)
    (ho : (∃ t k b, name = ScriptType.tag t ∧ o = .script t k b ∧ (t ≠ .post → b.chroot = false)) ∨
      (∃ k, name = c!"%packages" ∧ o = .packages k) ∨
      (∃ a, PassThrough name ∧ o = .null a [])) : Clean s' := by
  have hl : ∀ x, s'.sec x = if x = name then some o else s.sec x := by
    intro x; unfold PState.sec; rw [hsec]; exact lookup_assocSet ..
  refine ⟨hst, fun t => ?_, ?_, fun x hx hp => ?_⟩
  · rw [hl]
    rcases ho with ⟨t', k, b, rfl, rfl, hc⟩ | ⟨k, rfl, rfl⟩ | ⟨a, hn, rfl⟩
    · by_cases e : t = t'
      · subst e; rw [if_pos rfl]; exact ⟨k, b, rfl, hc⟩
      · rw [if_neg (fun h => e (tag_injective h))]; exact h.script t
    · rw [if_neg (by cases t <;> decide)]; exact h.script t
    · rw [if_neg (fun e => hn.2 t e.symm)]; exact h.script t
  · rw [hl]
    rcases ho with ⟨t', k, b, rfl, rfl, hc⟩ | ⟨k, rfl, rfl⟩ | ⟨a, hn, rfl⟩
    · rw [if_neg (by cases t' <;> decide)]; exact h.packages
    · exact ⟨k, if_pos rfl⟩
    · rw [if_neg (fun e => hn.1 e.symm)]; exact h.packages
  · have hold : x ≠ name → x ∈ s.tags := fun e => by
      have := valid_iff.2 hx
      unfold PState.valid at this
      rw [hl, if_neg e] at this
      exact valid_iff.1 this
    rw [hl]
    rcases ho with ⟨t', k, b, rfl, rfl, hc⟩ | ⟨k, rfl, rfl⟩ | ⟨a, hn, rfl⟩
    · rw [if_neg (hp.2 t')]; exact h.null x (hold (hp.2 t')) hp
    · rw [if_neg hp.1]; exact h.null x (hold hp.1) hp
    · by_cases e : x = name
      · exact ⟨a, if_pos e⟩
      · rw [if_neg e]; exact h.null x (hold e) hp

theorem keeps_set {s s' : PState C} {name : Str} {o o' : SecObj} (hs : s.sec name = some o')
    (hsec : s'.sections = assocSet name o s.sections) (hd : s'.includeDepth = s.includeDepth)
    (hc : s'.currentdir = s.currentdir) : Keeps s s' := by
  refine ⟨?_, hd, hc⟩
  unfold PState.tags
  rw [hsec]
  exact keys_assocSet (mem_tags_of_sec hs)

theorem run_item_of {s s' : PState C} {it : Item} {rest : List Str} {n : Nat}
    (hr : run cfg disp inc (it.lines ++ rest) n s = run cfg disp inc rest (n + it.lines.length) s')
    (he : (it.exec cfg disp n s.view).2 = none) (hv : s'.view = (it.exec cfg disp n s.view).1) (hc : Clean s') (hk : Keeps s s') :
    ∃ s', s'.view = (it.exec cfg disp n s.view).1 ∧ Clean s' ∧ Keeps s s' ∧
      run cfg disp inc (it.lines ++ rest) n s =
        match (it.exec cfg disp n s.view).2 with
        | none => run cfg disp inc rest (n + it.lines.length) s'
        | some e => (s', some e) := by
  refine ⟨s', hv, hc, hk, ?_⟩
  rw [he, hr]

theorem pending_set {s s' : PState C} {name : Str} {o : SecObj} (hsec : s'.sections = assocSet name o s.sections)
    (ho : ∀ t : ScriptType, name ≠ t.tag) : s'.pending = s.pending := by
  funext t
  unfold PState.pending PState.sec
  rw [hsec, lookup_assocSet, if_neg (fun e => ho t e.symm)]

theorem pending_set_script {s s' : PState C} {t : ScriptType} {k : Nat} {b : ScriptBuf}
    (hsec : s'.sections = assocSet t.tag (.script t k b) s.sections) :
    s'.pending = fun t' => if t' = t then b.body else s.pending t' := by
  funext t'
  unfold PState.pending PState.sec
  rw [hsec, lookup_assocSet]
  by_cases e : t' = t
  · subst e; simp
  · rw [if_neg (fun h => e (tag_injective h)), if_neg e]

/-- One part that is no include. -/
theorem run_item {s : PState C} (hc : Clean s) {it : Item} (hw : it.WF cfg.version s.tags) (hi : ∀ l f, it ≠ .incl l f)
    (rest : List Str) (n : Nat) :
    ∃ s', s'.view = (it.exec cfg disp n s.view).1 ∧ Clean s' ∧ Keeps s s' ∧
      run cfg disp inc (it.lines ++ rest) n s =
        match (it.exec cfg disp n s.view).2 with
        | none => run cfg disp inc rest (n + it.lines.length) s'
        | some e => (s', some e) := by
  cases it with
  | skip l =>
    refine ⟨specialComment l s, ?_, ?_, ?_, run_skip hw _ _ _⟩
    · by_cases h : l.take 10 = c!"#platform=" 
      · simp [specialComment, hc.state, Item.exec, PState.view, h]; rfl
      · simp [specialComment, hc.state, Item.exec, PState.view, h]
    · unfold specialComment; split
      · exact hc
      · split
        · exact ⟨hc.state, hc.script, hc.packages, hc.null⟩
        · exact hc
    · unfold specialComment; split
      · exact .refl _
      · split
        · exact ⟨rfl, rfl, rfl⟩
        · exact .refl _
  | cmd l words =>
    have hr := run_command (cfg := cfg) (disp := disp) (inc := inc) hw rest n s hc.state
    simp only [Item.lines, List.cons_append, List.nil_append, List.length_cons, List.length_nil, Nat.zero_add]
    rw [hr]
    simp only [handleCommand, tryFunc, Item.exec]
    have hv : s.view.cmds = s.cmds := rfl
    rw [hv]
    cases hd : disp (n + 1) words l s.cmds with
    | mk c e =>
      cases e with
      | none => exact ⟨{ s with cmds := c }, rfl, ⟨hc.state, hc.script, hc.packages, hc.null⟩, ⟨rfl, rfl, rfl⟩, rfl⟩
      | some e =>
        cases hf : cfg.errorsAreFatal with
        | true =>
          exact ⟨{ s with cmds := c, errorsCount := s.errorsCount + 1 }, rfl, ⟨hc.state, hc.script, hc.packages, hc.null⟩,
            ⟨rfl, rfl, rfl⟩, rfl⟩
        | false =>
          exact ⟨{ s with cmds := c, errorsCount := s.errorsCount + 1, printed := s.printed ++ [e] }, rfl,
            ⟨hc.state, hc.script, hc.packages, hc.null⟩, ⟨rfl, rfl, rfl⟩, rfl⟩
  | script t opts hdr body endl =>
    obtain ⟨h1, h2, h3, h5⟩ := hw
    obtain ⟨k, b, hs, hch⟩ := hc.script t
    have hpend : s.view.pending t = b.body := by show s.pending t = _; unfold PState.pending; rw [hs]
    have hr := run_script (cfg := cfg) (disp := disp) (inc := inc) h1 hc.state hs n (scriptHeader h2 (n + 1) b) h3 h5 rest
    have e : hdr :: (body ++ endl :: rest) = Item.lines (.script t opts hdr body endl) ++ rest := by simp [Item.lines]
    have en : n + body.length + 2 = n + (Item.lines (.script t opts hdr body endl)).length := by simp [Item.lines]; omega
    rw [e, en] at hr
    have hchr : (if t = .post then decide (ScriptOpt.nochroot ∉ opts) else b.chroot) = decide (t = .post ∧ ScriptOpt.nochroot ∉ opts) := by
      by_cases ht : t = .post
      · simp [ht]
      · simp [ht, hch ht]
    by_cases hbl : BlankBody (b.body ++ body)
    · rw [finalize_blank hbl] at hr
      refine run_item_of hr ?_ ?_ ?_ ?_
      · simp only [Item.exec, hpend, if_pos hbl]
      · simp only [Item.exec, hpend, if_pos hbl]
        simp only [PState.view, Option.toList_none, List.append_nil]
        rw [pending_set_script (s := s) rfl]
      · exact clean_set hc rfl rfl (.inl ⟨t, k + 1, _, rfl, rfl, fun ht => by simp [ht, hch ht]⟩)
      · exact keeps_set hs rfl rfl rfl
    · rw [finalize_script hbl] at hr
      refine run_item_of hr ?_ ?_ ?_ ?_
      · simp only [Item.exec, hpend, if_neg hbl]
      · simp only [Item.exec, hpend, if_neg hbl]
        simp only [PState.view, Option.toList_some]
        rw [pending_set_script (s := s) rfl]
        simp only [scriptOf, hchr]
        rfl
      · exact clean_set hc rfl rfl (.inl ⟨t, k + 1, .fresh t, rfl, rfl, fun ht => by simp [ScriptBuf.fresh, ht]⟩)
      · exact keeps_set hs rfl rfl rfl
  | pkgs args hdr body endl =>
    obtain ⟨h1, h2, h3, h4, h5⟩ := hw
    obtain ⟨k, hs⟩ := hc.packages
    have hh : s.packages.header cfg.version (n + 1) args = ((s.packages.header cfg.version (n + 1) args).1, none) := by
      rw [← h2 (n + 1) s.packages]
    have hf := h4 (s.packages.header cfg.version (n + 1) args).1
    have hf' : feedPackages body (s.packages.header cfg.version (n + 1) args).1 =
        ((feedPackages body (s.packages.header cfg.version (n + 1) args).1).1, none) := by rw [← hf]
    have hr := run_packages (cfg := cfg) (disp := disp) (inc := inc) h1 hc.state hs n hh h3 hf' h5 rest
    have e : hdr :: (body ++ endl :: rest) = Item.lines (.pkgs args hdr body endl) ++ rest := by simp [Item.lines]
    have en : n + body.length + 2 = n + (Item.lines (.pkgs args hdr body endl)).length := by simp [Item.lines]; omega
    rw [e, en] at hr
    refine run_item_of hr rfl ?_ ?_ ?_
    · simp only [PState.view, Item.exec]
      rw [pending_set (s := s) rfl (fun t => by cases t <;> decide)]
    · exact clean_set hc rfl rfl (.inr (.inl ⟨k + 1, rfl, rfl⟩))
    · exact keeps_set hs rfl rfl rfl
  | null name args hdr body endl =>
    obtain ⟨h1, h2, h3, h5⟩ := hw
    obtain ⟨a, hs⟩ := hc.null name h2.1 h2.2
    have hr := run_null (cfg := cfg) (disp := disp) (inc := inc) h1 hc.state hs n h3 h5 rest
    have e : hdr :: (body ++ endl :: rest) = Item.lines (.null name args hdr body endl) ++ rest := by simp [Item.lines]
    have en : n + body.length + 2 = n + (Item.lines (.null name args hdr body endl)).length := by simp [Item.lines]; omega
    rw [e, en] at hr
    refine run_item_of hr rfl ?_ ?_ ?_
    · simp only [PState.view, Item.exec]
      rw [pending_set (s := s) rfl h2.2.2, List.nil_append]
    · exact clean_set hc rfl rfl (.inr (.inr ⟨[], h2.2, rfl⟩))
    · exact keeps_set hs rfl rfl rfl
  | incl l f => exact absurd rfl (hi l f)

/-! ## Includes -/

/-- Where an include is looked for: as given, else next to the including file (in `dir`). -/
def findInclude (w : World) (dir : Option Str) (f : Str) : Str :=
  if w.exist f then f
  else match dir with
  | none => f
  | some d => if w.exist (pathJoin d f) then pathJoin d f else f

/-- The directory of a file. -/
def dirOf (w : World) (f : Str) : Str :=
  if startsWith (dirname f) c!"/" then dirname f else abspath w.cwd (dirname f)

/-- A file that cannot be opened: `load_to_str` raises `KickstartError`. -/
def Unreadable (w : World) (f : Str) : Prop := ∃ e, w.load f = .error e ∧ e.isKickstartError = true

/-- `Expands w v tags skip dir d n items out`: replacing, at most `d` levels deep, every include among
`items` (which follow `n` lines in a file of directory `dir`) by the parts of the included file gives
`out`, in which every part has the number of lines before it in its own file.  With `skip`, includes
of files that cannot be opened are left out; otherwise there are none. -/
inductive Expands (w : World) (v : Nat) (tags : List Str) (skip : Bool) : Option Str → Nat → Nat → List Item → List (Nat × Item) → Prop
  | nil {dir : Option Str} {d n : Nat} : Expands w v tags skip dir d n [] []
  | item {dir : Option Str} {d n : Nat} {it : Item} {rest : List Item} {out : List (Nat × Item)} (hi : ∀ l f, it ≠ .incl l f)
      (hw : it.WF v tags) (hr : Expands w v tags skip dir d (n + it.lines.length) rest out) :
      Expands w v tags skip dir d n (it :: rest) ((n, it) :: out)
  | incl {dir : Option Str} {d n : Nat} {l f text : Str} {sub rest : List Item} {out1 out2 : List (Nat × Item)}
      (hl : IncludeLine l f) (ht : w.load (findInclude w dir f) = .ok text)
      (hs : splitLines text = sub.flatMap Item.lines)
      (hsub : Expands w v tags skip (some (dirOf w (findInclude w dir f))) d 0 sub out1)
      (hr : Expands w v tags skip dir (d + 1) (n + 1) rest out2) :
      Expands w v tags skip dir (d + 1) n (.incl l f :: rest) (out1 ++ out2)
  | missing {dir : Option Str} {d n : Nat} {l f : Str} {rest : List Item} {out : List (Nat × Item)}
      (hl : IncludeLine l f) (ht : Unreadable w (findInclude w dir f)) (hskip : skip = true)
      (hr : Expands w v tags skip dir (d + 1) (n + 1) rest out) :
      Expands w v tags skip dir (d + 1) n (.incl l f :: rest) out

/-- Without includes. -/
theorem expands_flat (w : World) (v : Nat) (tags : List Str) (skip : Bool) (dir : Option Str) (d n : Nat) (items : List Item)
    (hi : ∀ it ∈ items, ∀ l f, it ≠ .incl l f) (hw : ∀ it ∈ items, it.WF v tags) :
    Expands w v tags skip dir d n items (numbered n items) := by
  induction items generalizing n with
  | nil => exact .nil
  | cons it rest ih =>
    exact .item (hi it (by simp)) (hw it (by simp))
      (ih _ (fun x hx => hi x (by simp [hx])) (fun x hx => hw x (by simp [hx])))

theorem execAll_append (cfg : Cfg) (disp : Disp C) (a b : List (Nat × Item)) (v : View C) :
    execAll cfg disp (a ++ b) v =
      match execAll cfg disp a v with
      | (v, none) => execAll cfg disp b v
      | (v, some e) => (v, some e) := by
  induction a generalizing v with
  | nil => rfl
  | cons x t ih =>
    obtain ⟨n, it⟩ := x
    rw [List.cons_append, execAll, execAll]
    cases it.exec cfg disp n v with
    | mk v' e => cases e with
      | none => exact ih v'
      | some e => rfl

theorem exec_tolerant {cfg : Cfg} (h : cfg.errorsAreFatal = false) (disp : Disp C) (n : Nat) (v : View C) (it : Item) :
    (it.exec cfg disp n v).2 = none := by
  cases it with
  | cmd l words =>
    simp only [Item.exec, h]
    cases disp (n + 1) words l v.cmds with
    | mk c e => cases e <;> rfl
  | script t opts hdr body endl => simp only [Item.exec]; split <;> rfl
  | _ => rfl

theorem execAll_tolerant {cfg : Cfg} (h : cfg.errorsAreFatal = false) (disp : Disp C) (l : List (Nat × Item)) (v : View C) :
    (execAll cfg disp l v).2 = none := by
  induction l generalizing v with
  | nil => rfl
  | cons x t ih =>
    obtain ⟨n, it⟩ := x
    rw [execAll]
    have := exec_tolerant h disp n v it
    cases he : it.exec cfg disp n v with
    | mk v' e => rw [he] at this; cases this; exact ih v'

theorem resolvePath_include (w : World) (f : Str) {s : PState C} {dir : Option Str} (hd : s.currentdir.lookup s.includeDepth = dir) :
    resolvePath w { s with includeDepth := s.includeDepth + 1 } f = findInclude w dir f := by
  unfold resolvePath findInclude
  simp only [hd]
  split
  · rfl
  · cases dir <;> rfl

/-- The exception for a file that cannot be opened (`parser.py:825`). -/
def cannotOpen : Exc := .ks c!"Unable to open input kickstart file" (some 0)

theorem readFile_unreadable {w : World} {f : Str} {s : PState C} {dir : Option Str} (hd : s.currentdir.lookup s.includeDepth = dir)
    (h : Unreadable w (findInclude w dir f)) (d : Nat) :
    readFile cfg w disp (d + 1) f { s with includeDepth := s.includeDepth + 1 } =
      (noteDir w (findInclude w dir f) { s with includeDepth := s.includeDepth + 1 }, some cannotOpen) := by
  obtain ⟨e, h1, h2⟩ := h
  rw [readFile]
  simp only [resolvePath_include w f hd, h1, h2, if_true]
  rfl

/-- Reading the lines of `items`, includes and all, has exactly the effect of the parts in `out`. -/
theorem run_expands {w : World} {tags : List Str} {dir : Option Str} {d n : Nat} {items : List Item} {out : List (Nat × Item)}
    (hfollow : cfg.followIncludes = true) (hm : cfg.missingIncludeIsFatal = true ∨ cfg.errorsAreFatal = false)
    (he : Expands w cfg.version tags (! cfg.missingIncludeIsFatal) dir d n items out) {s : PState C} (hc : Clean s) (ht : s.tags = tags)
    (hd : s.currentdir.lookup s.includeDepth = dir) (rest : List Str) :
    ∃ s', s'.view = (execAll cfg disp out s.view).1 ∧
      ((execAll cfg disp out s.view).2 = none → Clean s' ∧ s'.tags = tags ∧ s'.includeDepth = s.includeDepth ∧
        ∀ j ≤ s.includeDepth, s'.currentdir.lookup j = s.currentdir.lookup j) ∧
      run cfg disp (readFile cfg w disp d) (items.flatMap Item.lines ++ rest) n s =
        match (execAll cfg disp out s.view).2 with
        | none => run cfg disp (readFile cfg w disp d) rest (n + (items.flatMap Item.lines).length) s'
        | some e => (s', some e) := by
  induction he generalizing s rest with
  | nil => exact ⟨s, rfl, fun _ => ⟨hc, ht, rfl, fun _ _ => rfl⟩, rfl⟩
  | @item dir d n it items out hi hw hr ih =>
    subst ht
    obtain ⟨s1, hv1, hc1, hk1, hr1⟩ := run_item (cfg := cfg) (disp := disp) (inc := readFile cfg w disp d) hc hw hi
      (items.flatMap Item.lines ++ rest) n
    simp only [List.flatMap_cons, List.append_assoc]
    rw [hr1, execAll]
    cases hex : it.exec cfg disp n s.view with
    | mk v1 e =>
      rw [hex] at hv1
      cases e with
      | some e => exact ⟨s1, hv1, fun h => (Option.some_ne_none _ h).elim, rfl⟩
      | none =>
        simp only
        obtain ⟨s2, hv2, hp2, hr2⟩ := ih hc1 hk1.tags (by rw [hk1.dirs, hk1.depth]; exact hd) rest
        simp only at hv1
        rw [hv1] at hv2 hp2 hr2
        refine ⟨s2, hv2, fun h => ?_, ?_⟩
        · obtain ⟨a, b, c, e⟩ := hp2 h
          exact ⟨a, b, c.trans hk1.depth, fun j hj => (e j (by rw [hk1.depth]; exact hj)).trans (by rw [hk1.dirs])⟩
        · rw [hr2]
          cases (execAll cfg disp out v1).2 with
          | some e => rfl
          | none => simp only; congr 1; simp only [List.length_append]; omega
  | @incl dir d n l f text sub items out1 out2 hl hload hs hsub hr ih1 ih2 =>
    simp only [List.flatMap_cons, Item.lines, List.cons_append, List.nil_append]
    rw [run_include hl, handleInclude, if_neg (by simp [hfollow])]
    have hpath := resolvePath_include w f hd
    have hread : readFile cfg w disp (d + 1) f { s with includeDepth := s.includeDepth + 1 } =
        run cfg disp (readFile cfg w disp d) (sub.flatMap Item.lines ++ [[]]) 0
          (noteDir w (findInclude w dir f) { s with includeDepth := s.includeDepth + 1 }) := by
      rw [readFile]
      simp only [hpath, hload, hs]
      rfl
    rw [hread]
    generalize h0 : noteDir w (findInclude w dir f) { s with includeDepth := s.includeDepth + 1 } = s0
    have c0 : Clean s0 := by rw [← h0]; exact ⟨hc.state, hc.script, hc.packages, hc.null⟩
    have t0 : s0.tags = tags := by rw [← h0]; exact ht
    have v0 : s0.view = s.view := by rw [← h0]; rfl
    have d0 : s0.includeDepth = s.includeDepth + 1 := by rw [← h0]; rfl
    have l0 : ∀ j, s0.currentdir.lookup j = if j = s.includeDepth + 1 then some (dirOf w (findInclude w dir f)) else s.currentdir.lookup j := by
      intro j; rw [← h0]; exact lookup_assocSet ..
    obtain ⟨s1, hv1, hp1, hr1⟩ := ih1 c0 t0 (by rw [l0, d0, if_pos rfl]) [[]]
    rw [hr1, execAll_append]
    rw [v0] at hv1 hp1 ⊢
    cases hex : execAll cfg disp out1 s.view with
    | mk v1 e =>
      rw [hex] at hv1 hp1
      cases e with
      | some e =>
        have hmif : cfg.missingIncludeIsFatal = true := by
          rcases hm with h | h
          · exact h
          · have := execAll_tolerant h disp out1 s.view; rw [hex] at this; cases this
        simp only [hmif]
        exact ⟨s1, hv1, fun h => (Option.some_ne_none _ h).elim, by simp⟩
      | none =>
        obtain ⟨c1, t1, d1, l1⟩ := hp1 rfl
        simp only at hv1
        simp only [run_eof]
        obtain ⟨s2, hv2, hp2, hr2⟩ := ih2 (s := { s1 with includeDepth := s1.includeDepth - 1 })
          ⟨c1.state, c1.script, c1.packages, c1.null⟩ t1
          (by
            simp only [d1, d0, Nat.add_sub_cancel]
            rw [l1 _ (by omega), l0, if_neg (by omega)]
            exact hd) rest
        have hv : ({ s1 with includeDepth := s1.includeDepth - 1 } : PState C).view = v1 := hv1
        rw [hv] at hv2 hp2 hr2
        refine ⟨s2, hv2, fun h => ?_, ?_⟩
        · obtain ⟨a, b, c, e⟩ := hp2 h
          simp only [d1, d0, Nat.add_sub_cancel] at c e
          refine ⟨a, b, c, fun j hj => ?_⟩
          rw [e j hj, l1 j (by omega), l0, if_neg (by omega)]
        · rw [hr2]
          cases (execAll cfg disp out2 v1).2 with
          | some e => rfl
          | none => simp only; congr 1; simp only [List.length_cons]; omega

  | @missing dir d n l f items out hl hmiss hskip hr ih =>
    simp only [List.flatMap_cons, Item.lines, List.cons_append, List.nil_append]
    rw [run_include hl, handleInclude, if_neg (by simp [hfollow]), readFile_unreadable hd hmiss]
    have hmif : cfg.missingIncludeIsFatal = false := by simpa using hskip
    simp only [hmif]
    rw [if_pos ⟨rfl, by simp⟩]
    generalize h0 : ({ noteDir w (findInclude w dir f) { s with includeDepth := s.includeDepth + 1 } with
        includeDepth := (noteDir w (findInclude w dir f) { s with includeDepth := s.includeDepth + 1 }).includeDepth - 1 } : PState C) = s0
    have c0 : Clean s0 := by rw [← h0]; exact ⟨hc.state, hc.script, hc.packages, hc.null⟩
    have t0 : s0.tags = tags := by rw [← h0]; exact ht
    have v0 : s0.view = s.view := by rw [← h0]; rfl
    have d0 : s0.includeDepth = s.includeDepth := by rw [← h0]; rfl
    have l0 : ∀ j, s0.currentdir.lookup j = if j = s.includeDepth + 1 then some (dirOf w (findInclude w dir f)) else s.currentdir.lookup j := by
      intro j; rw [← h0]; exact lookup_assocSet ..
    obtain ⟨s2, hv2, hp2, hr2⟩ := ih c0 t0 (by rw [d0, l0, if_neg (by omega)]; exact hd) rest
    rw [v0] at hv2 hp2 hr2
    refine ⟨s2, hv2, fun h => ?_, ?_⟩
    · obtain ⟨a, b, c, e⟩ := hp2 h
      rw [d0] at c e
      exact ⟨a, b, c, fun j hj => by rw [e j hj, l0, if_neg (by omega)]⟩
    · simp only
      rw [hr2]
      cases (execAll cfg disp out s.view).2 with
      | some e => rfl
      | none => simp only; congr 1; simp only [List.length_cons]; omega

/-! ## Deciding well-formedness -/

instance (tags : List Str) (l : Str) : Decidable (PlainLine tags l) :=
  decidable_of_iff (l ≠ [] ∧ (match firstWord l with
      | none => true
      | some w => decide (w ∉ tags ∧ w ≠ c!"%end" ∧ w ≠ c!"%include")) = true)
    (by unfold PlainLine; cases firstWord l <;> simp)

instance (l : Str) : Decidable (SkipLine l) := by unfold SkipLine; infer_instance

instance (l name : Str) (args : List Str) : Decidable (HeaderLine l name args) := by unfold HeaderLine; infer_instance

instance (l : Str) : Decidable (EndLine l) :=
  decidable_of_iff (firstWord l = some c!"%end" ∧
      (match shlexSplit l false with | .ok (x :: _) => decide (x = c!"%end") | _ => false) = true)
    (by
      unfold EndLine
      cases h : shlexSplit l false with
      | error e => simp
      | ok a => cases a <;> simp)

instance (l : Str) (words : List Str) : Decidable (CmdLine l words) :=
  decidable_of_iff (isBlankOrComment l = false ∧ shlexSplit l true = .ok words ∧
      (match words with | (c :: _) :: _ => decide (c ≠ '%') | _ => false) = true)
    (by
      unfold CmdLine
      cases words with
      | nil => simp
      | cons w ws => cases w <;> simp)

instance (l f : Str) : Decidable (IncludeLine l f) :=
  decidable_of_iff (isBlankOrComment l = false ∧ f ≠ [] ∧
      (match shlexSplit l true with | .ok (x :: y :: _) => decide (x = c!"%include" ∧ y = f) | _ => false) = true)
    (by
      unfold IncludeLine
      cases h : shlexSplit l true with
      | error e => simp
      | ok a =>
        cases a with
        | nil => simp
        | cons x a => cases a <;> simp)

/-- Whether a package line raises does not depend on what was selected before. -/
theorem add_one_err (p q : Packages) (l : Str) : (p.add [l]).2 = (q.add [l]).2 := by
  have h : ∀ p : Packages, (p.add [l]).2 = match lineKind (strip l) with
      | .bad => some .index
      | .group r => (({} : Packages).processGroup r).2
      | _ => none := by
    intro p
    have hg : ∀ r, (p.processGroup r).2 = (({} : Packages).processGroup r).2 := by
      intro r
      unfold Packages.processGroup
      split
      · rfl
      · simp only
        split
        · rfl
        · split
          · simp only [List.map_nil, List.not_mem_nil, if_false]
            split
            · rfl
            · split <;> rfl
          · simp only [List.map_nil, List.not_mem_nil, if_false]
            simp only [apply_ite Prod.snd]
    unfold Packages.add
    simp only [Packages.addLoop, addLine_eq]
    cases hk : lineKind (strip l) with
    | bad => rfl
    | env e => rfl
    | group r =>
      simp only [← hg]
      cases (p.processGroup r).2 <;> rfl
    | dropAt g =>
      by_cases hc : g.head? = some '^' ∧ p.environment = some g.tail
      · simp [hc]
      · simp [hc]
    | drop r => rfl
    | pkg s => rfl
  rw [h p, h q]

theorem feedPackages_err (body : List Str) (p q : Packages) (h : (feedPackages body p).2 = none) :
    (feedPackages body q).2 = none := by
  induction body generalizing p q with
  | nil => rfl
  | cons l ls ih =>
    rw [feedPackages] at h ⊢
    split
    · rename_i hb; rw [if_pos hb] at h; exact ih _ _ h
    · rename_i hb
      rw [if_neg hb] at h
      have he := add_one_err p q (rstrip (partition '#' l).1)
      unfold Packages.handleLine at h ⊢
      cases hp : p.add [rstrip (partition '#' l).1] with
      | mk p' e =>
        cases hq : q.add [rstrip (partition '#' l).1] with
        | mk q' e' =>
          rw [hp, hq] at he
          simp only at he
          subst he
          rw [hp] at h
          cases e with
          | none => exact ih _ _ h
          | some e => simp at h

theorem setHeader_isNone (v n m : Nat) (ns : Ns) (p q : Packages) :
    (p.setHeader v n ns).2.isNone = (q.setHeader v m ns).2.isNone := by
  simp only [Packages.setHeader, apply_ite Prod.snd, apply_ite Option.isNone, Option.isNone_none, Option.isNone_some]

theorem setHeader_err (v n m : Nat) (ns : Ns) (p q : Packages) (h : (p.setHeader v n ns).2 = none) :
    (q.setHeader v m ns).2 = none := by
  rw [← Option.isNone_iff_eq_none] at h ⊢
  rw [← h]
  exact setHeader_isNone ..

/-- Whether a `%packages` header is accepted depends on its words and the version only. -/
theorem header_err (v n m : Nat) (args : List Str) (p q : Packages) (h : (p.header v n args).2 = none) :
    (q.header v m args).2 = none := by
  unfold Packages.header at h ⊢
  rcases (parseArgs_lsame (some n) (some m) (packagesParser v) args).cases with ⟨ns, h1, h2⟩ | ⟨e, e', h1, h2, _⟩
  · rw [h1] at h; rw [h2]; exact setHeader_err _ _ _ _ _ _ h
  · rw [h1] at h; simp at h

theorem setHeader_lineno (v n m : Nat) (ns : Ns) (p : Packages) : (p.setHeader v n ns).1 = (p.setHeader v m ns).1 := by
  simp only [Packages.setHeader, apply_ite Prod.fst]

theorem header_lineno (v n m : Nat) (args : List Str) (p : Packages) : (p.header v n args).1 = (p.header v m args).1 := by
  unfold Packages.header
  rcases (parseArgs_lsame (some n) (some m) (packagesParser v) args).cases with ⟨ns, h1, h2⟩ | ⟨e, e', h1, h2, _⟩
  · rw [h1, h2]; exact setHeader_lineno ..
  · rw [h1, h2]

theorem packagesWarnings_lineno (v n m : Nat) (args : List Str) (p : Packages) :
    packagesWarnings v n args p = packagesWarnings v m args p := by
  unfold packagesWarnings
  rw [warnings_lsame (some n) (some m)]
  have : (p.header v n args).2 = none ↔ (p.header v m args).2 = none := ⟨fun h => header_err _ _ _ _ _ _ h, fun h => header_err _ _ _ _ _ _ h⟩
  simp only [this]

/-- A `%packages` section is well formed if it can be read once. -/
theorem pkgs_wf {v : Nat} {tags : List Str} {args : List Str} {hdr endl : Str} {body : List Str}
    (h1 : HeaderLine hdr c!"%packages" args) (h2 : (({} : Packages).header v 0 args).2 = none)
    (h3 : ∀ l ∈ body, PlainLine tags l) (h4 : (feedPackages body {}).2 = none) (h5 : EndLine endl) :
    (Item.pkgs args hdr body endl).WF v tags :=
  ⟨h1, fun _ _ => header_err _ _ _ _ _ _ h2, h3, fun _ => feedPackages_err _ _ _ h4, h5⟩

/-- Well-formedness, as something to compute. -/
def Item.check (v : Nat) (tags : List Str) : Item → Bool
  | .skip l => decide (SkipLine l)
  | .cmd l words => decide (CmdLine l words)
  | .script t opts hdr body endl =>
    decide (HeaderLine hdr t.tag (opts.map ScriptOpt.text)) && decide (.nochroot ∈ opts → t = .post) &&
    decide (∀ l ∈ body, PlainLine tags l) && decide (EndLine endl)
  | .pkgs args hdr body endl =>
    decide (HeaderLine hdr c!"%packages" args) && decide ((({} : Packages).header v 0 args).2 = none) &&
    decide (∀ l ∈ body, PlainLine tags l) && decide ((feedPackages body {}).2 = none) && decide (EndLine endl)
  | .null name args hdr body endl =>
    decide (HeaderLine hdr name args) && decide (name ∈ tags ∧ PassThrough name) &&
    decide (∀ l ∈ body, PlainLine tags l) && decide (EndLine endl)
  | .incl l f => decide (IncludeLine l f)

theorem wf_of_check {v : Nat} {tags : List Str} {it : Item} (h : it.check v tags = true) : it.WF v tags := by
  cases it with
  | pkgs args hdr body endl =>
    simp only [Item.check, Bool.and_eq_true, decide_eq_true_eq] at h
    exact pkgs_wf h.1.1.1.1 h.1.1.1.2 h.1.1.2 h.1.2 h.2
  | _ =>
    simp only [Item.check, Bool.and_eq_true, decide_eq_true_eq] at h
    simp only [Item.WF]
    simpa only [and_assoc] using h

theorem wf_of_checks {v : Nat} {tags : List Str} {items : List Item} (h : items.all (Item.check v tags) = true) :
    ∀ it ∈ items, it.WF v tags := fun it hi => wf_of_check (List.all_eq_true.1 h it hi)

/-! ## Reading whole files -/

theorem clean_reset {s : PState C} (h : Clean s) : Clean s.reset := ⟨rfl, h.script, h.packages, h.null⟩

variable {cfg : Cfg} {disp : Disp C} {inc : Str → PState C → Res (PState C)}

/-- Lines without includes, whatever the configuration. -/
theorem run_flat {s : PState C} (hc : Clean s) {items : List Item} (hi : ∀ it ∈ items, ∀ l f, it ≠ .incl l f)
    (hw : ∀ it ∈ items, it.WF cfg.version s.tags) (rest : List Str) (n : Nat) :
    ∃ s', s'.view = (execAll cfg disp (numbered n items) s.view).1 ∧ Clean s' ∧ Keeps s s' ∧
      run cfg disp inc (items.flatMap Item.lines ++ rest) n s =
        match (execAll cfg disp (numbered n items) s.view).2 with
        | none => run cfg disp inc rest (n + (items.flatMap Item.lines).length) s'
        | some e => (s', some e) := by
  induction items generalizing s n with
  | nil => exact ⟨s, rfl, hc, .refl _, rfl⟩
  | cons it items ih =>
    obtain ⟨s1, hv1, hc1, hk1, hr1⟩ := run_item (cfg := cfg) (disp := disp) (inc := inc) hc (hw it (by simp)) (hi it (by simp))
      (items.flatMap Item.lines ++ rest) n
    simp only [List.flatMap_cons, List.append_assoc]
    rw [hr1, numbered, execAll]
    cases hex : it.exec cfg disp n s.view with
    | mk v1 e =>
      rw [hex] at hv1
      cases e with
      | some e => exact ⟨s1, hv1, hc1, hk1, rfl⟩
      | none =>
        simp only
        obtain ⟨s2, hv2, hc2, hk2, hr2⟩ := ih hc1 (fun x hx => hi x (by simp [hx]))
          (fun x hx => by rw [hk1.tags]; exact hw x (by simp [hx])) (n + it.lines.length)
        simp only at hv1
        rw [hv1] at hv2 hr2
        refine ⟨s2, hv2, hc2, hk1.trans hk2, ?_⟩
        rw [hr2]
        cases (execAll cfg disp (numbered (n + it.lines.length) items) v1).2 with
        | some e => rfl
        | none => simp only; congr 1; simp only [List.length_append]; omega

/-- Reading a text without includes does what its parts say. -/
theorem readString_flat {w : World} {d : Nat} {text : Str} {s : PState C} (hc : Clean s) {items : List Item}
    (ht : splitLines text = items.flatMap Item.lines) (hi : ∀ it ∈ items, ∀ l f, it ≠ .incl l f)
    (hw : ∀ it ∈ items, it.WF cfg.version s.tags) :
    (readString cfg w disp d text s).1.view = (execAll cfg disp (numbered 0 items) s.view).1 ∧
    (readString cfg w disp d text s).2 = (execAll cfg disp (numbered 0 items) s.view).2 ∧
    Clean (readString cfg w disp d text s).1 ∧ (readString cfg w disp d text s).1.tags = s.tags := by
  obtain ⟨s1, hv, hc1, hk, hr⟩ := run_flat (cfg := cfg) (disp := disp) (inc := readFile cfg w disp d) (clean_reset hc) hi hw [[]] 0
  unfold readString
  rw [stateMachine_eq, ht, hr]
  have e : s.reset.view = s.view := rfl
  rw [e] at hv ⊢
  cases h2 : (execAll cfg disp (numbered 0 items) s.view).2 with
  | none => exact ⟨hv, rfl, hc1, hk.tags⟩
  | some x => exact ⟨hv, rfl, hc1, hk.tags⟩

/-- Reading a text with includes. -/
theorem readString_expands {w : World} {d : Nat} {text : Str} {s : PState C} (hc : Clean s) {items : List Item}
    {out : List (Nat × Item)} (hfollow : cfg.followIncludes = true)
    (hm : cfg.missingIncludeIsFatal = true ∨ cfg.errorsAreFatal = false)
    (ht : splitLines text = items.flatMap Item.lines)
    (he : Expands w cfg.version s.tags (! cfg.missingIncludeIsFatal) (s.currentdir.lookup 0) d 0 items out) :
    (readString cfg w disp d text s).1.view = (execAll cfg disp out s.view).1 ∧
    (readString cfg w disp d text s).2 = (execAll cfg disp out s.view).2 := by
  obtain ⟨s1, hv, _, hr⟩ := run_expands (cfg := cfg) (disp := disp) hfollow hm he (clean_reset hc) rfl rfl [[]]
  unfold readString
  rw [stateMachine_eq, ht, hr]
  have e : s.reset.view = s.view := rfl
  rw [e] at hv ⊢
  cases h2 : (execAll cfg disp out s.view).2 with
  | none => exact ⟨hv, rfl⟩
  | some x => exact ⟨hv, rfl⟩

/-- Reading a file with includes. -/
theorem readKickstart_expands {w : World} {d : Nat} {f text : Str} {s : PState C} (hc : Clean s) {items : List Item}
    {out : List (Nat × Item)} (hfollow : cfg.followIncludes = true)
    (hm : cfg.missingIncludeIsFatal = true ∨ cfg.errorsAreFatal = false)
    (hl : w.load f = .ok text) (ht : splitLines text = items.flatMap Item.lines)
    (he : Expands w cfg.version s.tags (! cfg.missingIncludeIsFatal) (some (dirOf w f)) d 0 items out) :
    (readKickstart cfg w disp (d + 1) f s).1.view = (execAll cfg disp out s.view).1 ∧
    (readKickstart cfg w disp (d + 1) f s).2 = (execAll cfg disp out s.view).2 := by
  have hp : resolvePath w s.reset f = f := by
    unfold resolvePath; split <;> rfl
  unfold readKickstart
  rw [readFile]
  simp only [hp, hl]
  rw [stateMachine_eq, ht]
  generalize h0 : noteDir w f s.reset = s0
  have c0 : Clean s0 := by rw [← h0]; exact ⟨rfl, hc.script, hc.packages, hc.null⟩
  obtain ⟨s1, hv, _, hr⟩ := run_expands (cfg := cfg) (disp := disp) hfollow hm he c0 (by rw [← h0]; rfl)
    (by rw [← h0]; exact (lookup_assocSet _ _ _ _).trans (if_pos rfl)) [[]]
  rw [hr]
  have e : s0.view = s.view := by rw [← h0]; rfl
  rw [e] at hv ⊢
  cases h2 : (execAll cfg disp out s.view).2 with
  | none => exact ⟨hv, rfl⟩
  | some x => exact ⟨hv, rfl⟩

end Ks
