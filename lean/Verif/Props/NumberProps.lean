import Verif.Commands.NearHandler
import Verif.Props.ToolProps
/-!
# Line numbers (C72)

Where a line stands in a file matters only to what is reported about it.  The handlers here are the
real ones of any version, after any use.
-/
namespace Ks

open Cmd

variable {C : Type}

/-! ## Reading up to line numbers -/

/-- The same for a user, apart from line numbers, when `R` says so of the commands. -/
structure View.Like (R : C → C → Prop) (v v' : View C) : Prop where
  cmds : R v.cmds v'.cmds
  packages : v.packages = v'.packages
  scripts : v.scripts.map (fun sc => { sc with lineno := none }) = v'.scripts.map fun sc => { sc with lineno := none }
  nullStrings : v.nullStrings = v'.nullStrings
  platform : v.platform = v'.platform
  errorsCount : v.errorsCount = v'.errorsCount
  printed : v.printed.map Exc.noLine = v'.printed.map Exc.noLine
  warnings : v.warnings = v'.warnings
  pending : v.pending = v'.pending

/-- A handler that uses the line number only in what `R` does not see. -/
def LineBlind (R : C → C → Prop) (disp : Disp C) : Prop :=
  ∀ n m ws l c c', R c c' → R (disp n ws l c).1 (disp m ws l c').1 ∧ (disp n ws l c).2.map Exc.noLine = (disp m ws l c').2.map Exc.noLine

variable {R : C → C → Prop} {disp : Disp C}

theorem exec_like (cfg : Cfg) (hl : LineBlind R disp) (n m : Nat) {v v' : View C} (hv : v.Like R v') (it : Item) :
    (it.exec cfg disp n v).1.Like R (it.exec cfg disp m v').1 ∧
    (it.exec cfg disp n v).2.map Exc.noLine = (it.exec cfg disp m v').2.map Exc.noLine := by
  obtain ⟨cmds, packages, scripts, nullStrings, platform, errorsCount, printed, warnings, pending⟩ := v
  obtain ⟨cmds', packages', scripts', nullStrings', platform', errorsCount', printed', warnings', pending'⟩ := v'
  obtain ⟨hcm, hpk, hsc, hnu, hpl, hec, hpr, hwa, hpe⟩ := hv
  simp only at hcm hpk hsc hnu hpl hec hpr hwa hpe
  subst hpk hnu hpl hec hwa hpe
  cases it with
  | cmd l ws =>
    simp only [Item.exec]
    obtain ⟨h1, h2⟩ := hl (n + 1) (m + 1) ws l cmds cmds' hcm
    cases hn : disp (n + 1) ws l cmds with
    | mk c e =>
      cases hm : disp (m + 1) ws l cmds' with
      | mk c' e' =>
        rw [hn, hm] at h1 h2
        simp only at h1 h2
        cases e with
        | none =>
          cases e' with
          | none => exact ⟨⟨h1, rfl, hsc, rfl, rfl, rfl, hpr, rfl, rfl⟩, rfl⟩
          | some e' => simp at h2
        | some e =>
          cases e' with
          | none => simp at h2
          | some e' =>
            simp only [Option.map_some, Option.some.injEq] at h2
            cases cfg.errorsAreFatal with
            | true => exact ⟨⟨h1, rfl, hsc, rfl, rfl, rfl, hpr, rfl, rfl⟩, congrArg some h2⟩
            | false => exact ⟨⟨h1, rfl, hsc, rfl, rfl, rfl, by simp [hpr, h2], rfl, rfl⟩, rfl⟩
  | pkgs args hdr body endl =>
    simp only [Item.exec]
    rw [header_lineno cfg.version (n + 1) (m + 1), packagesWarnings_lineno cfg.version (n + 1) (m + 1)]
    exact ⟨⟨hcm, rfl, hsc, rfl, rfl, rfl, hpr, rfl, rfl⟩, trivial⟩
  | script t opts hdr body endl =>
    simp only [Item.exec]
    split
    · exact ⟨⟨hcm, rfl, hsc, rfl, rfl, rfl, hpr, rfl, rfl⟩, rfl⟩
    · exact ⟨⟨hcm, rfl, by simp [hsc, scriptOf], rfl, rfl, rfl, hpr, rfl, rfl⟩, rfl⟩
  | _ => exact ⟨⟨hcm, rfl, hsc, rfl, rfl, rfl, hpr, rfl, rfl⟩, rfl⟩

theorem execAll_like (cfg : Cfg) (hl : LineBlind R disp) (a b : List (Nat × Item)) (hab : a.map (·.2) = b.map (·.2))
    {v v' : View C} (hv : v.Like R v') :
    (execAll cfg disp a v).1.Like R (execAll cfg disp b v').1 ∧
    (execAll cfg disp a v).2.map Exc.noLine = (execAll cfg disp b v').2.map Exc.noLine := by
  induction a generalizing b v v' with
  | nil =>
    cases b with
    | nil => exact ⟨hv, rfl⟩
    | cons x t => simp at hab
  | cons x a ih =>
    cases b with
    | nil => simp at hab
    | cons y b =>
      obtain ⟨n, it⟩ := x
      obtain ⟨m, it'⟩ := y
      simp only [List.map_cons, List.cons.injEq] at hab
      obtain ⟨rfl, hab⟩ := hab
      obtain ⟨h1, h2⟩ := exec_like cfg hl n m hv it
      rw [execAll, execAll]
      cases hn : it.exec cfg disp n v with
      | mk c e =>
        cases hm : it.exec cfg disp m v' with
        | mk c' e' =>
          rw [hn, hm] at h1 h2
          cases e with
          | none =>
            cases e' with
            | none => exact ih b hab h1
            | some e' => simp at h2
          | some e =>
            cases e' with
            | none => simp at h2
            | some e' => exact ⟨h1, h2⟩

/-- What is left of a part without its layout: nothing of a blank line or a comment (unless it gives
the platform); the opening and closing lines of sections do not matter beyond their words. -/
def Item.gist : Item → Option Item
  | .skip l => if l.take 10 = c!"#platform=" then some (.skip (c!"#platform=" ++ strip (l.drop 10))) else none
  | .cmd l words => some (.cmd l words)
  | .script t opts _ body _ => some (.script t opts [] body [])
  | .pkgs args _ body _ => some (.pkgs args [] body [])
  | .null name args _ body _ => some (.null name args [] body [])
  | .incl _ _ => none

theorem exec_gist (cfg : Cfg) (disp : Disp C) (n : Nat) (v : View C) (it : Item) :
    it.exec cfg disp n v = match it.gist with | none => (v, none) | some x => x.exec cfg disp n v := by
  cases it with
  | skip l =>
    simp only [Item.gist, Item.exec]
    by_cases h : l.take 10 = c!"#platform="
    · rw [if_pos h, if_pos h]
      have h1 : (c!"#platform=" ++ strip (l.drop 10)).take 10 = c!"#platform=" := by
        rw [List.take_append_of_le_length (by decide)]; rfl
      have h2 : (c!"#platform=" ++ strip (l.drop 10)).drop 10 = strip (l.drop 10) := by
        rw [List.drop_append_of_le_length (by decide)]; rfl
      simp only
      rw [if_pos h1, h2, strip_eq_self (strip_trimmed _)]
    · rw [if_neg h, if_neg h]
  | _ => rfl

theorem execAll_gist (cfg : Cfg) (disp : Disp C) (a : List (Nat × Item)) (v : View C) :
    execAll cfg disp a v = execAll cfg disp (a.filterMap fun x => x.2.gist.map fun y => (x.1, y)) v := by
  induction a generalizing v with
  | nil => rfl
  | cons x a ih =>
    obtain ⟨n, it⟩ := x
    rw [execAll, exec_gist, List.filterMap_cons]
    cases it.gist with
    | none => exact ih v
    | some y =>
      simp only [Option.map_some]
      rw [execAll]
      cases y.exec cfg disp n v with
      | mk c e =>
        cases e with
        | none => exact ih c
        | some e => rfl

theorem gists_snd (out : List (Nat × Item)) :
    (out.filterMap fun x => x.2.gist.map fun y => (x.1, y)).map (·.2) = (out.map (·.2)).filterMap Item.gist := by
  induction out with
  | nil => rfl
  | cons x t ih =>
    rw [List.filterMap_cons, List.map_cons, List.filterMap_cons]
    cases x.2.gist with
    | none => exact ih
    | some y => simpa using ih

theorem gists_numbered (n : Nat) (items : List Item) :
    ((numbered n items).filterMap fun x => x.2.gist.map fun y => (x.1, y)).map (·.2) = items.filterMap Item.gist := by
  induction items generalizing n with
  | nil => rfl
  | cons it t ih =>
    rw [numbered, List.filterMap_cons, List.filterMap_cons]
    cases it.gist with
    | none => exact ih _
    | some y => simpa using ih _

/-! ## Real handlers -/

/-- Two handlers of version `v` that differ only in line numbers. -/
def NearSession (v : Nat) (h h' : Handler CState Ns) : Prop := Session v h ∧ Session v h' ∧ NearH h h'

/-- C72: a line read by a handler of any version, at whatever place in a file, does the same apart
from the line numbers that are noted: the handlers stay equal but for those, and it is accepted or
rejected with the same exception. -/
theorem C72_dispatch {v : Nat} (hv : Supported v) : LineBlind (NearSession v) Handler.dispatch := by
  intro n m ws l c c' ⟨h1, h2, h3⟩
  obtain ⟨h4, h5⟩ := h3.dispatch (session_allBlind hv h1) n m ws l
  exact ⟨⟨h1.dispatch n ws l, h2.dispatch m ws l, h4⟩, h5⟩

/-- C72: what may differ: in two such handlers the objects are of the same classes, have the same
attributes, and their data objects have the same values under every name but `lineno`. -/
theorem C72_differ {v : Nat} {h h' : Handler CState Ns} (hn : NearSession v h h') :
    h.commands = h'.commands ∧ h.writeOrder = h'.writeOrder ∧ h.attrs = h'.attrs ∧ h.heap.length = h'.heap.length ∧
    ∀ (r : Nat) (o o' : Obj CState Ns), h.heap[r]? = some o → h'.heap[r]? = some o' →
      o.cls = o'.cls ∧ o.inst.seen = o'.inst.seen ∧ o.inst.currentCmd = o'.inst.currentCmd ∧ o.inst.currentLine = o'.inst.currentLine ∧
      o.inst.attrs.attrs = o'.inst.attrs.attrs ∧ o.inst.attrs.warned = o'.inst.attrs.warned ∧
      o.inst.attrs.data.length = o'.inst.attrs.data.length ∧
      ∀ (j : Nat) (d d' : Ns), o.inst.attrs.data[j]? = some d → o'.inst.attrs.data[j]? = some d' →
        ∀ k, k ≠ c!"lineno" → d.get k = d'.get k := by
  obtain ⟨_, _, n⟩ := hn
  obtain ⟨h1, h2, h3, _⟩ := n.parts
  refine ⟨h1, h2, h3, n.length, fun r o o' ho ho' => ?_⟩
  obtain ⟨i, hi, hn⟩ := n.obj ho
  rw [ho'] at hi
  cases hi
  obtain ⟨e1, e2, e3, e4, e5, e6⟩ := nearI_iff.1 hn
  refine ⟨rfl, e3, e1, e2, e4, e6, ?_, fun j d d' hd hd' k hk => ?_⟩
  · have := congrArg List.length e5
    simpa using this
  · have := congrArg (fun l => l[j]?) e5
    simp only [List.getElem?_map, hd, hd', Option.map_some, Option.some.injEq] at this
    exact Near.get this hk

theorem script_str_lineno (sver : Nat) {a b : List Script}
    (h : a.map (fun sc => { sc with lineno := none }) = b.map fun sc => { sc with lineno := none }) :
    a.map (·.str sver) = b.map (·.str sver) := by
  have e : ∀ sc : Script, sc.str sver = ({ sc with lineno := none } : Script).str sver := fun _ => rfl
  have e' : ∀ l : List Script, l.map (·.str sver) = (l.map fun sc => { sc with lineno := none }).map (·.str sver) := by
    intro l
    rw [List.map_map]
    exact List.map_congr_left fun sc _ => e sc
  rw [e' a, e' b, h]

/-- C72: what is written does not depend on line numbers. -/
theorem C72_written {v : Nat} (hv : Supported v) (ver : Str) (version sver : Nat) {s s' : PState (Handler CState Ns)}
    (h : s.view.Like (NearSession v) s'.view) : writeHandler ver version sver s = writeHandler ver version sver s' := by
  obtain ⟨⟨h1, h2, h3⟩, hpk, hsc, hnu, hpl, -, -, -, -⟩ := h
  have e1 : s.cmds.str = s'.cmds.str := h3.str (session_allBlind hv h1)
  have e2 := script_str_lineno sver hsc
  simp only [PState.view] at hpk hsc hnu hpl e2
  unfold writeHandler
  rw [e1, hpk, hnu, hpl, e2]

theorem like_refl {v : Nat} {s : PState (Handler CState Ns)} (hs : Session v s.cmds) : s.view.Like (NearSession v) s.view :=
  ⟨⟨hs, hs, .refl _⟩, rfl, rfl, rfl, rfl, rfl, rfl, rfl, rfl⟩

variable {v : Nat} {cfg : Cfg} {w : World} {s : PState (Handler CState Ns)} {text text' : Str} {items items' : List Item}

/-- C72: two files with the same parts, whatever blank lines and comments stand between them and
however the lines that open and close sections are laid out, give the same commands, packages,
scripts, platform, error count, messages, warnings and exception, apart from line numbers, and the
same text is written afterwards. -/
theorem C72_layout (hv : Supported v) (hc : Clean s) (hs : Session v s.cmds) (hd : IsDoc cfg.version s.tags text items)
    (hd' : IsDoc cfg.version s.tags text' items') (hg : items.filterMap Item.gist = items'.filterMap Item.gist) (d d' : Nat)
    (ver : Str) (version sver : Nat) :
    let r := readString cfg w Handler.dispatch d text s
    let r' := readString cfg w Handler.dispatch d' text' s
    r.1.view.Like (NearSession v) r'.1.view ∧ r.2.map Exc.noLine = r'.2.map Exc.noLine ∧
    writeHandler ver version sver r.1 = writeHandler ver version sver r'.1 := by
  obtain ⟨h1, h2, _⟩ := readString_flat (cfg := cfg) (w := w) (disp := Handler.dispatch) (d := d) hc hd.lines hd.noIncl hd.wf
  obtain ⟨h3, h4, _⟩ := readString_flat (cfg := cfg) (w := w) (disp := Handler.dispatch) (d := d') hc hd'.lines hd'.noIncl hd'.wf
  have key := execAll_like cfg (C72_dispatch hv) _ _ ((gists_numbered 0 items).trans (hg.trans (gists_numbered 0 items').symm)) (like_refl hs)
  rw [← execAll_gist, ← execAll_gist, ← h1, ← h2, ← h3, ← h4] at key
  exact ⟨key.1, key.2, C72_written hv ver version sver key.1⟩

/-- C72: includes.  Reading a file with includes, nested to any depth, with the handler of any version
gives what reading the text with the files pasted in gives, apart from line numbers, and the same text
is written afterwards (compare `C34_include_is_paste`, which is about handlers that do not note line
numbers at all). -/
theorem C72_include (hv : Supported v) (hfollow : cfg.followIncludes = true)
    (hm : cfg.missingIncludeIsFatal = true ∨ cfg.errorsAreFatal = false) (hc : Clean s) (hs : Session v s.cmds)
    {f : Str} {out : List (Nat × Item)} (hload : w.load f = .ok text) (ht : splitLines text = items.flatMap Item.lines) {d : Nat}
    (he : Expands w cfg.version s.tags (! cfg.missingIncludeIsFatal) (some (dirOf w f)) d 0 items out)
    (hp : IsDoc cfg.version s.tags text' items') (hg : (out.map (·.2)).filterMap Item.gist = items'.filterMap Item.gist) (d' : Nat)
    (ver : Str) (version sver : Nat) :
    let r := readKickstart cfg w Handler.dispatch (d + 1) f s
    let r' := readString cfg w Handler.dispatch d' text' s
    r.1.view.Like (NearSession v) r'.1.view ∧ r.2.map Exc.noLine = r'.2.map Exc.noLine ∧
    writeHandler ver version sver r.1 = writeHandler ver version sver r'.1 := by
  obtain ⟨h1, h2⟩ := readKickstart_expands (cfg := cfg) (disp := Handler.dispatch) hc hfollow hm hload ht he
  obtain ⟨h3, h4, _⟩ := readString_flat (cfg := cfg) (w := w) (disp := Handler.dispatch) (d := d') hc hp.lines hp.noIncl hp.wf
  have key := execAll_like cfg (C72_dispatch hv) _ _ ((gists_snd out).trans (hg.trans (gists_numbered 0 items').symm)) (like_refl hs)
  rw [← execAll_gist, ← execAll_gist, ← h1, ← h2, ← h3, ← h4] at key
  exact ⟨key.1, key.2, C72_written hv ver version sver key.1⟩

/-- C72: two files, each with includes or without, that come to the same parts when the includes are
pasted in. -/
theorem C72_files (hv : Supported v) (hfollow : cfg.followIncludes = true)
    (hm : cfg.missingIncludeIsFatal = true ∨ cfg.errorsAreFatal = false) (hc : Clean s) (hs : Session v s.cmds)
    {f g : Str} {out out' : List (Nat × Item)} {d d' : Nat}
    (hload : w.load f = .ok text) (ht : splitLines text = items.flatMap Item.lines)
    (he : Expands w cfg.version s.tags (! cfg.missingIncludeIsFatal) (some (dirOf w f)) d 0 items out)
    (hload' : w.load g = .ok text') (ht' : splitLines text' = items'.flatMap Item.lines)
    (he' : Expands w cfg.version s.tags (! cfg.missingIncludeIsFatal) (some (dirOf w g)) d' 0 items' out')
    (hg : (out.map (·.2)).filterMap Item.gist = (out'.map (·.2)).filterMap Item.gist) (ver : Str) (version sver : Nat) :
    let r := readKickstart cfg w Handler.dispatch (d + 1) f s
    let r' := readKickstart cfg w Handler.dispatch (d' + 1) g s
    r.1.view.Like (NearSession v) r'.1.view ∧ r.2.map Exc.noLine = r'.2.map Exc.noLine ∧
    writeHandler ver version sver r.1 = writeHandler ver version sver r'.1 := by
  obtain ⟨h1, h2⟩ := readKickstart_expands (cfg := cfg) (disp := Handler.dispatch) hc hfollow hm hload ht he
  obtain ⟨h3, h4⟩ := readKickstart_expands (cfg := cfg) (disp := Handler.dispatch) hc hfollow hm hload' ht' he'
  have key := execAll_like cfg (C72_dispatch hv) _ _ ((gists_snd out).trans (hg.trans (gists_snd out').symm)) (like_refl hs)
  rw [← execAll_gist, ← execAll_gist, ← h1, ← h2, ← h3, ← h4] at key
  exact ⟨key.1, key.2, C72_written hv ver version sver key.1⟩

theorem noLine_kickstart {e e' : Exc} (h : e.noLine = e'.noLine) :
    e.isKickstartError = e'.isKickstartError ∧ (e.isKickstartError = false → e = e') := by
  cases e <;> cases e' <;> simp_all [Exc.noLine, Exc.isKickstartError]

/-- C72: `ksflatten` does the same with both files: same output, same files, same way to end. -/
theorem C72_flatten {opts opts' : FlattenOpts} {d : Disk} {n : Net} {cwd ver : Str} {exist : Str → Bool} {k k' : Nat}
    (hver : opts.version = opts'.version) (hout : opts.output = opts'.output)
    (hne : opts.kscfg ≠ []) (hne' : opts'.kscfg ≠ [])
    (hmk : Version.makeVersion opts.version = .ok (some v)) (hv : Supported v)
    {out out' : List (Nat × Item)}
    (hload : loadToStr d n opts.kscfg = .ok text) (ht : splitLines text = items.flatMap Item.lines)
    (he : Expands (worldOf d n cwd exist) v standardTags false (some (dirOf (worldOf d n cwd exist) opts.kscfg)) k 0 items out)
    (hload' : loadToStr d n opts'.kscfg = .ok text') (ht' : splitLines text' = items'.flatMap Item.lines)
    (he' : Expands (worldOf d n cwd exist) v standardTags false (some (dirOf (worldOf d n cwd exist) opts'.kscfg)) k' 0 items' out')
    (hg : (out.map (·.2)).filterMap Item.gist = (out'.map (·.2)).filterMap Item.gist) :
    ksflatten opts d n cwd exist ver versionDisp (k + 1) newHandler = ksflatten opts' d n cwd exist ver versionDisp (k' + 1) newHandler := by
  obtain ⟨-, h2, h3⟩ := C72_files (cfg := { version := v }) (w := worldOf d n cwd exist) (s := { cmds := newHandler v }) hv rfl (.inl rfl)
    (clean_new _) .new hload ht he hload' ht' he' hg ver v v
  unfold ksflatten
  rw [if_neg hne, if_neg hne', ← hver, hmk, ← hout]
  simp only
  have e : versionDisp v = Handler.dispatch := rfl
  rw [e]
  cases hr : readKickstart { version := v } (worldOf d n cwd exist) Handler.dispatch (k + 1) opts.kscfg { cmds := newHandler v } with
  | mk a x =>
    cases hr' : readKickstart { version := v } (worldOf d n cwd exist) Handler.dispatch (k' + 1) opts'.kscfg { cmds := newHandler v } with
    | mk a' x' =>
      rw [hr, hr'] at h2 h3
      simp only at h2 h3
      cases x with
      | none =>
        cases x' with
        | none => simp only [h3]
        | some y => simp at h2
      | some y =>
        cases x' with
        | none => simp at h2
        | some y' =>
          simp only [Option.map_some, Option.some.injEq] at h2
          obtain ⟨e1, e2⟩ := noLine_kickstart h2
          simp only [← e1]
          cases hk : y.isKickstartError with
          | true => rfl
          | false => rw [e2 hk]

/-! ## Examples -/

theorem fresh (v : Nat) : Session v ({ cmds := newHandler v } : PState (Handler CState Ns)).cmds := .new

/-- The line numbers in data objects. -/
def dataLines (h : Handler CState Ns) : List (Option Val) := (h.heap.flatMap fun o => o.inst.attrs.data).map fun d => d.get c!"lineno"

theorem lines_near (v n m : Nat) (hv : Supported v) (args : List Str) (line : Str) :
    NearH ((newHandler v).dispatch n args line).1 ((newHandler v).dispatch m args line).1 :=
  (C72_dispatch hv n m args line _ _ ⟨.new, .new, .refl _⟩).1.2.2

/-- `user` keeps the number of its line; nothing else tells the two handlers apart. -/
example :
    dataLines ((newHandler Version.F34).dispatch 3 [c!"user", c!"--name=a"] c!"user --name=a\n").1 = [some (.int 3)] ∧
    dataLines ((newHandler Version.F34).dispatch 7 [c!"user", c!"--name=a"] c!"user --name=a\n").1 = [some (.int 7)] ∧
    NearH ((newHandler Version.F34).dispatch 3 [c!"user", c!"--name=a"] c!"user --name=a\n").1
      ((newHandler Version.F34).dispatch 7 [c!"user", c!"--name=a"] c!"user --name=a\n").1 :=
  ⟨by decide +kernel, by decide +kernel, lines_near _ _ _ (by decide +kernel) _ _⟩

def numberItems : List Item :=
  [.cmd c!"lang en_US\n" [c!"lang", c!"en_US"], .cmd c!"user --name=a\n" [c!"user", c!"--name=a"],
   .script .post [] c!"%post\n" [c!"x\n"] c!"%end\n", .cmd c!"user\n" [c!"user"]]

def numberItems' : List Item :=
  [.skip c!"\n", .skip c!"# hello\n", .cmd c!"lang en_US\n" [c!"lang", c!"en_US"], .skip c!"  # x\n", .cmd c!"user --name=a\n" [c!"user", c!"--name=a"],
   .script .post [] c!"%post # the end\n" [c!"x\n"] c!"%end   # really\n", .skip c!"\n", .cmd c!"user\n" [c!"user"], .skip c!"# z"]

/-- Two layouts of a file with an error in its last line. -/
example (w : World) (ver : Str) :
    let r := readString { version := Version.F34, errorsAreFatal := false } w Handler.dispatch 1 c!"lang en_US\nuser --name=a\n%post\nx\n%end\nuser\n"
      { cmds := newHandler Version.F34 }
    let r' := readString { version := Version.F34, errorsAreFatal := false } w Handler.dispatch 1
      c!"\n# hello\nlang en_US\n  # x\nuser --name=a\n%post # the end\nx\n%end   # really\n\nuser\n# z" { cmds := newHandler Version.F34 }
    writeHandler ver Version.F34 Version.F34 r.1 = writeHandler ver Version.F34 Version.F34 r'.1 ∧ r.1.view.printed.map Exc.noLine = r'.1.view.printed.map Exc.noLine := by
  have h := C72_layout (v := Version.F34) (cfg := { version := Version.F34, errorsAreFatal := false }) (w := w) (s := { cmds := newHandler Version.F34 })
    (text := c!"lang en_US\nuser --name=a\n%post\nx\n%end\nuser\n")
    (text' := c!"\n# hello\nlang en_US\n  # x\nuser --name=a\n%post # the end\nx\n%end   # really\n\nuser\n# z")
    (items := numberItems) (items' := numberItems') (by decide +kernel) (clean_new _) (fresh Version.F34) (isDoc_of_check (by decide +kernel)) (isDoc_of_check (by decide +kernel))
    rfl 1 1 ver Version.F34 Version.F34
  exact ⟨h.2.2, h.1.printed⟩

/-- ... and what is printed about it tells the layouts apart. -/
example :
    (readString { version := Version.F34, errorsAreFatal := false } sampleWorld Handler.dispatch 1 c!"lang en_US\nuser\n" { cmds := newHandler Version.F34 }).1.printed ≠
    (readString { version := Version.F34, errorsAreFatal := false } sampleWorld Handler.dispatch 1 c!"lang en_US\n\nuser\n" { cmds := newHandler Version.F34 }).1.printed := by
  decide +kernel

/-- Three files that include one another, read with the commands of F34. -/
example (ver : Str) :
    let r := readKickstart { version := Version.F34, errorsAreFatal := false } sampleWorld Handler.dispatch 4 c!"/d/main" { cmds := newHandler Version.F34 }
    let r' := readString { version := Version.F34, errorsAreFatal := false } sampleWorld Handler.dispatch 1 c!"ok 1\n%post\nz\n%end\nbad\nok 3\n\nok 2\n" { cmds := newHandler Version.F34 }
    writeHandler ver Version.F34 Version.F34 r.1 = writeHandler ver Version.F34 Version.F34 r'.1 ∧ r.1.view.printed.map Exc.noLine = r'.1.view.printed.map Exc.noLine := by
  have h := C72_include (v := Version.F34) (cfg := { version := Version.F34, errorsAreFatal := false }) (w := sampleWorld) (s := { cmds := newHandler Version.F34 })
    (f := c!"/d/main") (by decide +kernel) rfl (.inr rfl) (clean_new _) (fresh Version.F34) rfl (by decide +kernel) sampleWorld_expands
    (text' := c!"ok 1\n%post\nz\n%end\nbad\nok 3\n\nok 2\n")
    (items' := [.cmd c!"ok 1\n" [c!"ok", c!"1"], .script .post [] c!"%post\n" [c!"z\n"] c!"%end\n", .cmd c!"bad\n" [c!"bad"],
      .cmd c!"ok 3\n" [c!"ok", c!"3"], .skip c!"\n", .cmd c!"ok 2\n" [c!"ok", c!"2"]])
    (isDoc_of_check (by decide +kernel)) rfl 1 ver Version.F34 Version.F34
  exact ⟨h.2.2, h.1.printed⟩

end Ks
