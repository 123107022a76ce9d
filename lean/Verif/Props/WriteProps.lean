import Verif.Props.RoundTripProps
import Verif.Props.ParserProps
import Verif.Props.HandlerProps
import Verif.Props.VersionProps
/-!
# The written kickstart file (C41, C52, C54)
-/
namespace Ks
variable {C : Type}
variable {cfg : Cfg} {w : World} {disp : Disp C} {d : Nat} {s : PState C}

/-! ## Putting parts together -/

theorem IsDoc.append {v : Nat} {tags : List Str} {a b : Str} {x y : List Item} (ha : IsDoc v tags a x) (hb : IsDoc v tags b y)
    (h : a = [] ∨ a.getLast? = some '\n') : IsDoc v tags (a ++ b) (x ++ y) := by
  refine ⟨?_, fun it hit => ?_, fun it hit => ?_⟩
  · rw [splitLines_append h, ha.lines, hb.lines, List.flatMap_append]
  · rcases List.mem_append.1 hit with hit | hit
    · exact ha.noIncl it hit
    · exact hb.noIncl it hit
  · rcases List.mem_append.1 hit with hit | hit
    · exact ha.wf it hit
    · exact hb.wf it hit

theorem IsDoc.nil {v : Nat} {tags : List Str} : IsDoc v tags [] [] := ⟨rfl, by simp, by simp⟩

/-- A comment or blank line. -/
theorem IsDoc.skip {v : Nat} {tags : List Str} {l : Str} (hb : NoBreak l) (hs : isBlankOrComment (l ++ c!"\n") = true) :
    IsDoc v tags (l ++ c!"\n") [.skip (l ++ c!"\n")] := by
  refine ⟨?_, by simp, ?_⟩
  · rw [splitLines_line hb]; rfl
  · intro it hit
    rw [List.mem_singleton.1 hit]
    exact ⟨by simp, hs⟩

theorem isComment {x : Str} : isBlankOrComment ('#' :: x) = true := by
  unfold isBlankOrComment
  have : lstrip ('#' :: x) = '#' :: x := lstrip_eq_self (fun c hc => by simp at hc; subst hc; decide)
  rw [this]
  simp

theorem lines_end {ls : List Str} {text : Str} (h : splitLines text = ls) : text = ls.flatten := by rw [← h, splitLines_flatten]

/-! ## C41: sections that are only passed through -/

/-- A section of a file that is only kept for output: name, the other words of its header, and its
lines without their line feeds. -/
structure Kept where
  name : Str
  args : List Str
  body : List Str

/-- What is kept of it (`C40_kept_for_output`). -/
def Kept.text (k : Kept) : Str := passedText k.name k.args (k.body.map (· ++ c!"\n"))

/-- The words of its header, without quotes. -/
def Kept.hdr (k : Kept) : Str := joinWith c!" " (k.name :: k.args)

/-- Such a section in a file: a registered name, a header without quotes and plain lines. -/
structure Kept.OK (tags : List Str) (k : Kept) : Prop where
  name : k.name ∈ tags ∧ PassThrough k.name ∧ startsWith k.name c!"%" = true ∧ k.name ≠ c!"%include" ∧ k.name ≠ c!"%ksappend"
  words : ∀ x ∈ k.name :: k.args, x ≠ [] ∧ BareValue x
  body : ∀ l ∈ k.body, NoBreak l ∧ PlainLine tags (l ++ c!"\n")

/-- Each line followed by a blank one. -/
def spread (body : List Str) : List Str := body.flatMap fun l => [l, []]

/-- The lines of the sections after the first: they are not recognized, because what should be their
first line is on the line of the `%end` before. -/
def glued (ks : List Kept) : List Str := ks.flatMap fun k => (c!"%end" ++ k.hdr) :: spread k.body

/-- The one section that a list of sections becomes. -/
def Kept.merge (k : Kept) (ks : List Kept) : Kept := { k with body := spread k.body ++ glued ks }

theorem Kept.text_eq (k : Kept) : k.text = k.hdr ++ c!"\n" ++ ((spread k.body).map (· ++ c!"\n")).flatten ++ c!"%end" := by
  unfold Kept.text passedText Kept.hdr spread
  congr 2
  generalize k.body = b
  induction b with
  | nil => rfl
  | cons x t ih => simp_all

theorem glued_text (ks : List Kept) : c!"%end" ++ ks.flatMap Kept.text = ((glued ks).map (· ++ c!"\n")).flatten ++ c!"%end" := by
  induction ks with
  | nil => rfl
  | cons k t ih =>
    rw [List.flatMap_cons, Kept.text_eq]
    unfold glued at ih ⊢
    rw [List.flatMap_cons, List.map_append, List.flatten_append]
    have : k.hdr ++ c!"\n" ++ ((spread k.body).map (· ++ c!"\n")).flatten ++ c!"%end" ++ t.flatMap Kept.text =
      k.hdr ++ c!"\n" ++ ((spread k.body).map (· ++ c!"\n")).flatten ++ (c!"%end" ++ t.flatMap Kept.text) := by simp
    rw [this, ih]
    simp

theorem spread_ok {tags : List Str} {body : List Str} (h : ∀ l ∈ body, NoBreak l ∧ PlainLine tags (l ++ c!"\n")) :
    ∀ l ∈ spread body, NoBreak l ∧ PlainLine tags (l ++ c!"\n") := by
  intro l hl
  unfold spread at hl
  obtain ⟨x, hx, hl⟩ := List.mem_flatMap.1 hl
  simp only [List.mem_cons, List.not_mem_nil, or_false] at hl
  rcases hl with rfl | rfl
  · exact h l hx
  · exact ⟨by simp [NoBreak], by simp, fun w hw => by simp [firstWord, splitWs, isSpace] at hw⟩

/-- A line that starts with other characters than white space. -/
theorem firstWord_prefix {a b : Str} (ha : a ≠ []) (hs : ∀ c ∈ a, isSpace c = false) : ∃ r, firstWord (a ++ b) = some (a ++ r) := by
  induction a with
  | nil => exact absurd rfl ha
  | cons c t ih =>
    have hc := hs c (by simp)
    cases t with
    | nil =>
      cases b with
      | nil => exact ⟨[], by simp [firstWord, splitWs, hc]⟩
      | cons d u =>
        simp only [List.cons_append, List.nil_append, firstWord]
        rw [splitWs]
        simp only [hc, Bool.false_eq_true, if_false]
        split
        · exact ⟨[], rfl⟩
        · split
          · exact ⟨[], rfl⟩
          · rename_i w ws _; exact ⟨w, rfl⟩
    | cons d u =>
      obtain ⟨r, hr⟩ := ih (by simp) (fun x hx => hs x (by simp [hx]))
      have hd := hs d (by simp)
      simp only [List.cons_append, firstWord] at hr ⊢
      rw [splitWs]
      simp only [hc, hd, Bool.false_eq_true, if_false]
      cases hw : splitWs (d :: (u ++ b)) with
      | nil => rw [hw] at hr; cases hr
      | cons w ws =>
        rw [hw] at hr
        simp only [List.head?_cons, Option.some.injEq] at hr ⊢
        exact ⟨r, by rw [hr]⟩

theorem Kept.OK.noBreak {tags : List Str} {k : Kept} (h : k.OK tags) : NoBreak k.hdr :=
  noBreak_join fun x hx c hc => ((h.words x hx).2 c hc).2

theorem Kept.OK.hdr_head {tags : List Str} {k : Kept} (h : k.OK tags) : ∃ t, k.hdr = '%' :: t := by
  unfold Kept.hdr
  rw [joinWith_cons_blank]
  have := h.name.2.2.1
  cases hn : k.name with
  | nil => rw [hn] at this; cases this
  | cons c t =>
    rw [hn] at this
    have hc : '%' = c := by simpa [startsWith] using this
    subst hc
    exact ⟨_, rfl⟩

theorem glue_ok {tags : List Str} (ht : ∀ t ∈ tags, startsWith t c!"%end" = false) {k : Kept} (h : k.OK tags) :
    NoBreak (c!"%end" ++ k.hdr) ∧ PlainLine tags (c!"%end" ++ k.hdr ++ c!"\n") := by
  refine ⟨fun c hc => ?_, by simp, fun w hw => ?_⟩
  · rcases List.mem_append.1 hc with hc | hc
    · exact (by decide : NoBreak c!"%end") c hc
    · exact h.noBreak c hc
  · obtain ⟨t, ht'⟩ := h.hdr_head
    have e : c!"%end" ++ k.hdr ++ c!"\n" = c!"%end%" ++ (t ++ c!"\n") := by rw [ht']; simp
    rw [e] at hw
    obtain ⟨r, hr⟩ := firstWord_prefix (a := c!"%end%") (b := t ++ c!"\n") (by simp) (by decide)
    rw [hr] at hw
    injection hw with hw
    subst hw
    exact ⟨fun hm => by have := ht _ hm; revert this; simp [startsWith], by simp, by simp⟩

theorem merge_ok {tags : List Str} (ht : ∀ t ∈ tags, startsWith t c!"%end" = false) {k : Kept} {ks : List Kept} (h : k.OK tags) (hs : ∀ k ∈ ks, k.OK tags) :
    (k.merge ks).OK tags := by
  refine ⟨h.name, h.words, ?_⟩
  intro l hl
  rcases List.mem_append.1 hl with hl | hl
  · exact spread_ok h.body l hl
  · unfold glued at hl
    obtain ⟨x, hx, hl⟩ := List.mem_flatMap.1 hl
    rcases List.mem_cons.1 hl with rfl | hl
    · exact glue_ok ht (hs x hx)
    · exact spread_ok (hs x hx).body l hl

/-- A section as part of a file. -/
def Kept.item (k : Kept) (e : Str) : Item := .null k.name k.args (k.hdr ++ c!"\n") (k.body.map (· ++ c!"\n")) (c!"%end" ++ e)

theorem splitLines_map {ls : List Str} (h : ∀ l ∈ ls, NoBreak l) (rest : Str) :
    splitLines ((ls.map (· ++ c!"\n")).flatten ++ rest) = ls.map (· ++ c!"\n") ++ splitLines rest := by
  induction ls with
  | nil => rfl
  | cons l t ih =>
    have e : ((l :: t).map (· ++ c!"\n")).flatten ++ rest = l ++ '\n' :: ((t.map (· ++ c!"\n")).flatten ++ rest) := by simp
    rw [e, splitLines_line (h l (by simp)), ih (fun x hx => h x (by simp [hx]))]
    rfl

/-- Any number of kept sections is one section when it is read. -/
theorem kept_isDoc {v : Nat} {tags : List Str} (ht : ∀ t ∈ tags, startsWith t c!"%end" = false) {k : Kept} {ks : List Kept} (h : k.OK tags) (hs : ∀ k ∈ ks, k.OK tags)
    {e : Str} (he : e = [] ∨ e = c!"\n") : IsDoc v tags ((k :: ks).flatMap Kept.text ++ e) [(k.merge ks).item e] := by
  have hm := merge_ok ht h hs
  refine ⟨?_, by simp [Kept.item], ?_⟩
  · have e1 : (k :: ks).flatMap Kept.text ++ e = k.hdr ++ '\n' :: (((k.merge ks).body.map (· ++ c!"\n")).flatten ++ (c!"%end" ++ e)) := by
      rw [List.flatMap_cons, Kept.text_eq]
      have : k.hdr ++ c!"\n" ++ ((spread k.body).map (· ++ c!"\n")).flatten ++ c!"%end" ++ ks.flatMap Kept.text =
        k.hdr ++ c!"\n" ++ ((spread k.body).map (· ++ c!"\n")).flatten ++ (c!"%end" ++ ks.flatMap Kept.text) := by simp
      rw [this, glued_text]
      simp [Kept.merge]
    rw [e1, splitLines_line h.noBreak, splitLines_map (fun l hl => (hm.body l hl).1)]
    have : splitLines (c!"%end" ++ e) = [c!"%end" ++ e] := by rcases he with rfl | rfl <;> decide
    rw [this]
    simp [Kept.item, Item.lines, Kept.hdr, Kept.merge]
  · intro it hit
    rw [List.mem_singleton.1 hit]
    refine ⟨⟨?_, bare_shlex (fun x hx => ⟨(hm.words x hx).1, fun c hc => ((hm.words x hx).2 c hc).1⟩), hm.name.2.2.1, hm.name.2.2.2⟩, ⟨hm.name.1, hm.name.2.1⟩, ?_, ?_⟩
    · obtain ⟨t, ht'⟩ := hm.hdr_head
      rw [ht']
      exact notBlank_of_head (by decide) (by decide)
    · intro l hl
      obtain ⟨x, hx, rfl⟩ := List.mem_map.1 hl
      exact (hm.body x hx).2
    · rcases he with rfl | rfl <;> decide +kernel

/-- C41, what happens instead: writing sections that are only kept for output and reading the text
back adds exactly one section, no matter how many there were.  It has the header of the first one; its
body consists of the lines of the first section, each followed by a blank line, and then for each further
section a line with `%end` directly followed by the header, and its lines, each followed by a blank line. -/
theorem C41_merged (hc : Clean s) (ht : ∀ t ∈ s.tags, startsWith t c!"%end" = false) {k : Kept} {ks : List Kept}
    (h : k.OK s.tags) (hs : ∀ k ∈ ks, k.OK s.tags) :
    let r := readString cfg w disp d (c!"\n" ++ (k :: ks).flatMap Kept.text) s
    r.2 = none ∧
    r.1.nullStrings = s.nullStrings ++ [Kept.text ⟨k.name, k.args, spread k.body ++ ks.flatMap fun k => (c!"%end" ++ joinWith c!" " (k.name :: k.args)) :: spread k.body⟩] ∧
    r.1.cmds = s.cmds ∧ r.1.packages = s.packages ∧ r.1.scripts = s.scripts := by
  have hd : IsDoc cfg.version s.tags (c!"\n" ++ (k :: ks).flatMap Kept.text) ([.skip c!"\n"] ++ [(k.merge ks).item []]) := by
    have := kept_isDoc (v := cfg.version) ht h hs (.inl rfl)
    rw [List.append_nil] at this
    exact IsDoc.append (IsDoc.skip (l := []) (by simp [NoBreak]) (by decide)) this (.inr rfl)
  obtain ⟨hview, herr, _, _⟩ := readString_flat (cfg := cfg) (w := w) (disp := disp) (d := d) hc hd.lines hd.noIncl hd.wf
  generalize readString cfg w disp d (c!"\n" ++ (k :: ks).flatMap Kept.text) s = r at *
  have e : execAll cfg disp (numbered 0 ([Item.skip c!"\n"] ++ [(k.merge ks).item []])) s.view =
      ({ s.view with nullStrings := s.nullStrings ++ [Kept.text (k.merge ks)] }, none) := by
    simp only [List.cons_append, List.nil_append, numbered, execAll, Item.exec, Kept.item]
    rw [nullString_eq (fun l hl => by obtain ⟨x, _, rfl⟩ := List.mem_map.1 hl; simp)]
    rfl
  rw [e] at hview herr
  exact ⟨herr, congrArg View.nullStrings hview, congrArg View.cmds hview, congrArg View.packages hview, congrArg View.scripts hview⟩

/-- C41, the part that holds: one section without lines is read back as it was.
Missing: more sections, or lines in it (`C41_lines_spread`, `C41_sections_merged`). -/
theorem C41_roundtrip_partial (hc : Clean s) (ht : ∀ t ∈ s.tags, startsWith t c!"%end" = false) {k : Kept} (h : k.OK s.tags) (hb : k.body = []) :
    let r := readString cfg w disp d (c!"\n" ++ k.text) s
    r.2 = none ∧ r.1.nullStrings = s.nullStrings ++ [k.text] ∧ r.1.cmds = s.cmds ∧ r.1.packages = s.packages ∧ r.1.scripts = s.scripts := by
  have := C41_merged (cfg := cfg) (w := w) (disp := disp) (d := d) hc ht h (ks := []) (by simp)
  simp only [List.flatMap_cons, List.flatMap_nil, List.append_nil, hb] at this
  refine ⟨this.1, this.2.1.trans ?_, this.2.2⟩
  congr 2
  rw [show k = ⟨k.name, k.args, k.body⟩ from rfl, hb]
  rfl

/-- C41 is false in general: reading and writing a section spreads its lines. -/
theorem C41_lines_spread :
    let s : PState (List Str) := { cmds := [] }
    let a := (readString { version := Version.F34 } sampleWorld picky 2 c!"%addon foo\nx=1\ny=2\n%end\n" s).1.nullStrings
    let b := (readString { version := Version.F34 } sampleWorld picky 2 (c!"\n" ++ a.flatten) s).1.nullStrings
    a = [c!"%addon foo\nx=1\n\ny=2\n\n%end"] ∧ b = [c!"%addon foo\nx=1\n\n\n\ny=2\n\n\n\n%end"] := by
  decide +kernel

/-- C41 is false in general: the second section is lost in the first. -/
theorem C41_sections_merged :
    let s : PState (List Str) := { cmds := [] }
    let a := (readString { version := Version.F34 } sampleWorld picky 2 c!"%addon foo\n%end\n%addon bar\n%end\n" s).1.nullStrings
    let b := (readString { version := Version.F34 } sampleWorld picky 2 (c!"\n" ++ a.flatten) s).1.nullStrings
    a = [c!"%addon foo\n%end", c!"%addon bar\n%end"] ∧ b = [c!"%addon foo\n%end%addon bar\n\n%end"] := by
  decide +kernel

theorem keptSample_ok (body : List Str) (h : ∀ l ∈ body, NoBreak l ∧ PlainLine standardTags (l ++ c!"\n")) :
    Kept.OK standardTags ⟨c!"%addon", [c!"foo", c!"--x=1"], body⟩ :=
  ⟨by simp only; decide, by simp only; decide, h⟩

example : (readString { version := Version.F34 } sampleWorld picky 2 (c!"\n" ++ c!"%addon foo --x=1\nx\n\n%end%addon foo --x=1\n%end") { cmds := [] }).1.nullStrings =
    [c!"%addon foo --x=1\nx\n\n\n\n%end%addon foo --x=1\n\n%end"] :=
  (C41_merged (s := { cmds := [] }) (cfg := { version := Version.F34 }) (clean_new _) (by decide)
    (keptSample_ok [c!"x"] (by decide)) (ks := [⟨c!"%addon", [c!"foo", c!"--x=1"], []⟩]) (by intro k hk; rw [List.mem_singleton.1 hk]; exact keptSample_ok [] (by simp))).2.1

example : (readString { version := Version.F34 } sampleWorld picky 2 (c!"\n" ++ c!"%addon foo --x=1\n%end") { cmds := [] }).1.nullStrings =
    [c!"%addon foo --x=1\n%end"] :=
  (C41_roundtrip_partial (s := { cmds := [] }) (cfg := { version := Version.F34 }) (clean_new _) (by decide) (keptSample_ok [] (by simp)) rfl).2.1

/-! ## C52: the layout -/

variable {σ δ : Type}

/-- The names of versions are single lines that need no stripping. -/
theorem versionName_line {v : Int} {skip : Bool} {name : Str} (h : Version.versionToString v skip = .ok name) :
    NoBreak name ∧ rstrip (name ++ c!"\n") = name := by
  obtain ⟨n, hn, _⟩ := Version.versionToString_ok h
  have key : ∀ x ∈ Version.versionMap, NoBreak x.1 ∧ rstrip (x.1 ++ c!"\n") = x.1 := by decide +kernel
  exact key _ hn

/-- The header of a written file. -/
def fileHeader (ver platform name : Str) : Str :=
  c!"# Generated by pykickstart v" ++ ver ++ c!"\n" ++ (if platform ≠ [] then c!"#platform=" ++ platform ++ c!"\n" else []) ++
  c!"#version=" ++ name ++ c!"\n"

theorem writeHandler_ok {ver : Str} {version sver : Nat} {s : PState (Handler σ δ)} {text : Str} {p : Packages}
    (h : writeHandler ver version sver s = .ok (text, p)) :
    ∃ name, Version.versionToString version false = .ok name ∧
      text = fileHeader ver s.platform name ++ (s.cmds.str ++ (s.scripts.flatMap (Script.str sver) ++
        ((if s.nullStrings ≠ [] then c!"\n" ++ s.nullStrings.flatten else []) ++ (s.packages.str sver).1))) := by
  unfold writeHandler at h
  split at h
  · cases h
  · rename_i name hn
    simp only [Except.ok.injEq, Prod.mk.injEq] at h
    refine ⟨name, hn, ?_⟩
    rw [← h.1]
    unfold fileHeader
    simp [List.flatMap]

/-- C52: the written file consists of three comment lines (the generator, the platform if there is
one, the version), the texts of the commands that have a priority, each command once and by increasing priority
and class name, the scripts in their order, the kept sections in their order after a line feed, and the
package selection. -/
theorem C52_layout {m : List (Str × CmdClass σ δ)} {mp up : Option (List (Str × CmdClass σ δ))} (hd : Dicts m mp up)
    {ver : Str} {version sver : Nat} {s : PState (Handler σ δ)} (hh : Dispatched (Handler.build m mp up) s.cmds) {text : Str} {p : Packages}
    (h : writeHandler ver version sver s = .ok (text, p)) :
    ∃ (name : Str) (L : List Nat),
      text = c!"# Generated by pykickstart v" ++ ver ++ c!"\n" ++ (if s.platform = [] then [] else c!"#platform=" ++ s.platform ++ c!"\n") ++
        c!"#version=" ++ name ++ c!"\n" ++ (L.map s.cmds.text).flatten ++ (s.scripts.map (Script.str sver)).flatten ++
        (if s.nullStrings = [] then [] else c!"\n" ++ s.nullStrings.flatten) ++ (s.packages.str sver).1 ∧
      Version.stringToVersion name = .ok version ∧ L.Nodup ∧
      (∀ r, r ∈ L ↔ (∃ n, s.cmds.Serves n r) ∧ s.cmds.prioOf r ≠ none) ∧
      L.Pairwise fun a b => ∃ p q, s.cmds.prioOf a = some p ∧ s.cmds.prioOf b = some q ∧ (p < q ∨ p = q ∧ s.cmds.className a < s.cmds.className b) := by
  obtain ⟨name, hn, ht⟩ := writeHandler_ok h
  obtain ⟨L, h1, h2, h3, h4⟩ := C46_once_in_order hd hh
  obtain ⟨n, hv, hnv⟩ := Version.C01_string_roundtrip _ _ _ name hn rfl
  refine ⟨name, L, ?_, by rw [hv]; congr 1; exact Int.ofNat.inj hnv, h2, h3, h4⟩
  rw [ht, h1]
  unfold fileHeader
  by_cases e1 : s.platform = [] <;> by_cases e2 : s.nullStrings = [] <;> simp [e1, e2, List.flatMap]

theorem last_nl (a : Str) : (a ++ c!"\n").getLast? = some '\n' := List.getLast?_concat

/-- The comment lines. -/
def headerItems (ver platform name : Str) : List Item :=
  [.skip (c!"# Generated by pykickstart v" ++ ver ++ c!"\n")] ++ (if platform ≠ [] then [.skip (c!"#platform=" ++ platform ++ c!"\n")] else []) ++
  [.skip (c!"#version=" ++ name ++ c!"\n")]

theorem noBreak_append {a b : Str} (ha : NoBreak a) (hb : NoBreak b) : NoBreak (a ++ b) := by
  intro c hc
  rcases List.mem_append.1 hc with hc | hc
  · exact ha c hc
  · exact hb c hc

theorem header_isDoc {v : Nat} {tags : List Str} {ver platform name : Str} (h1 : NoBreak ver) (h2 : NoBreak platform) (h3 : NoBreak name) :
    IsDoc v tags (fileHeader ver platform name) (headerItems ver platform name) := by
  unfold fileHeader headerItems
  rw [List.append_assoc (_ ++ ite _ _ _), List.append_assoc (_ ++ ite _ _ _)]
  have a1 : IsDoc v tags (c!"# Generated by pykickstart v" ++ ver ++ c!"\n") [.skip (c!"# Generated by pykickstart v" ++ ver ++ c!"\n")] :=
    IsDoc.skip (noBreak_append (by decide) h1) isComment
  have a2 : IsDoc v tags (if platform ≠ [] then c!"#platform=" ++ platform ++ c!"\n" else []) (if platform ≠ [] then [.skip (c!"#platform=" ++ platform ++ c!"\n")] else []) := by
    split
    · exact IsDoc.skip (noBreak_append (by decide) h2) isComment
    · exact IsDoc.nil
  have a3 : IsDoc v tags (c!"#version=" ++ name ++ c!"\n") [.skip (c!"#version=" ++ name ++ c!"\n")] :=
    IsDoc.skip (noBreak_append (by decide) h3) isComment
  have := (a1.append a2 (.inr (last_nl _))).append a3 (by
    right
    split
    · rw [← List.append_assoc]; exact last_nl _
    · rw [List.append_nil]; exact last_nl _)
  simpa only [List.append_assoc] using this

theorem header_last (ver platform name : Str) : (fileHeader ver platform name).getLast? = some '\n' := by
  unfold fileHeader; exact last_nl _

theorem header_exec (ver platform name : Str) (n : Nat) (v : View C) :
    execAll cfg disp (numbered n (headerItems ver platform name)) v =
      ({ v with platform := if platform = [] then v.platform else strip platform }, none) := by
  unfold headerItems
  by_cases h : platform = []
  · simp [h, numbered, execAll, Item.exec]
  · simp only [ne_eq, h, not_false_eq_true, if_true, if_false, List.cons_append, List.nil_append, numbered, execAll, Item.exec]
    rw [if_neg (by simp), if_pos (by simp)]
    congr 2
    rw [← strip_rstrip, ← strip_rstrip platform]
    congr 1
    exact rstrip_append_space (by decide)

/-- C52: the version comment of the written file names the version of the handler: it is what
`versionFromFile` finds, whatever is in the handler. -/
theorem C52_version {ver : Str} {version sver : Nat} {s : PState (Handler σ δ)} {text : Str} {p : Packages}
    (h : writeHandler ver version sver s = .ok (text, p)) (h1 : NoBreak ver) (h2 : NoBreak s.platform)
    {load : Str → Except Exc Str} {f : Str} (hl : load f = .ok text) : Version.versionFromFile load f = .ok version := by
  obtain ⟨name, hn, ht⟩ := writeHandler_ok h
  obtain ⟨n, hv, hnv⟩ := Version.C01_string_roundtrip _ _ _ name hn rfl
  have hname := versionName_line hn
  have hd := header_isDoc (v := 0) (tags := []) h1 h2 hname.1
  have hs : splitLines text = ((c!"# Generated by pykickstart v" ++ ver ++ c!"\n") :: (if s.platform ≠ [] then [c!"#platform=" ++ s.platform ++ c!"\n"] else [])) ++
      (c!"#version=" ++ (name ++ c!"\n")) :: splitLines (s.cmds.str ++ (s.scripts.flatMap (Script.str sver) ++
        ((if s.nullStrings ≠ [] then c!"\n" ++ s.nullStrings.flatten else []) ++ (s.packages.str sver).1))) := by
    rw [ht, splitLines_append (.inr (header_last _ _ _)), hd.lines]
    unfold headerItems
    split <;> simp [Item.lines]
  rw [Version.C03_first_line load f text hl _ _ _ hs, hname.2, hv]
  · congr 1; exact Int.ofNat.inj hnv
  · intro l hl
    rintro ⟨t, rfl⟩
    rcases List.mem_cons.1 hl with hl | hl
    · simp at hl
    · split at hl
      · simp at hl
      · simp at hl

/-! ## C54: reading the written file back -/

/-- A comment or blank line that does not name a platform, or a command. -/
def CommandItem : Item → Prop
  | .skip l => l.take 10 ≠ c!"#platform="
  | .cmd _ _ => True
  | _ => False

/-- Handing the command lines to the commands, one after the other, the first after line `n`. -/
def runCommands (disp : Disp C) : Nat → List Item → C → C × Option Exc
  | _, [], c => (c, none)
  | n, .cmd l words :: rest, c =>
    match disp (n + 1) words l c with
    | (c, none) => runCommands disp (n + 1) rest c
    | (c, some e) => (c, some e)
  | n, _ :: rest, c => runCommands disp (n + 1) rest c

theorem commands_exec {items : List Item} (h : ∀ it ∈ items, CommandItem it) (n : Nat) (v : View C) {c : C}
    (hr : runCommands disp n items v.cmds = (c, none)) : execAll cfg disp (numbered n items) v = ({ v with cmds := c }, none) := by
  induction items generalizing n v with
  | nil => rw [runCommands] at hr; cases hr; rfl
  | cons it rest ih =>
    have hi := h it (by simp)
    have hrest := fun x hx => h x (List.mem_cons_of_mem it hx)
    cases it with
    | skip l =>
      rw [runCommands] at hr
      · rw [numbered, execAll]
        have e : Item.exec cfg disp n v (.skip l) = (v, none) := by
          rw [Item.exec, if_neg hi]
        rw [e]
        exact ih hrest _ _ hr
      · simp
    | cmd l ws =>
      rw [runCommands] at hr
      rw [numbered, execAll, Item.exec]
      cases hd : disp (n + 1) ws l v.cmds with
      | mk c1 o =>
        rw [hd] at hr
        cases o with
        | some e => cases hr
        | none => exact ih hrest _ { v with cmds := c1 } hr
    | _ => exact hi.elim

/-- What becomes of the kept sections (`C41_merged`). -/
def keptBack : List Kept → List Str
  | [] => []
  | k :: ks => [Kept.text ⟨k.name, k.args, spread k.body ++ ks.flatMap fun k => (c!"%end" ++ joinWith c!" " (k.name :: k.args)) :: spread k.body⟩]

/-- What becomes of the package selection. -/
def SelectedBack (p q : Packages) : Prop := (p.Untouched → q = {}) ∧ (¬ p.Untouched → ({ p with seen := true } : Packages).Reordered q)

theorem packages_exec {p : Packages} (h : p.Writable) (hs : p.Supported cfg.version) (hu : ¬ p.Untouched) (n : Nat) (v : View C) (hv : v.packages = {}) :
    ∃ wn q, Item.exec cfg disp n v (.pkgs (p.opts.map (·.tok.text)) p.hdr (p.body ++ [c!"\n"]) c!"%end\n") =
      ({ v with packages := q, warnings := v.warnings ++ wn }, none) ∧ SelectedBack p q := by
  refine ⟨_, _, rfl, fun hu' => absurd hu' hu, fun _ => ?_⟩
  rw [hv, packages_header hs, feed_body h ⟨rfl, rfl, rfl, rfl, rfl⟩]
  exact ⟨sortBy_perm _, .refl _, sortBy_perm _, .refl _, rfl⟩

theorem packages_untouched {p : Packages} (hu : p.Untouched) (ver : Nat) : (p.str ver).1 = [] := (C23_empty_iff ver p).2 hu

/-- The end of the file: kept sections and packages. -/
theorem tail_exec {tags : List Str} (ht : ∀ t ∈ tags, startsWith t c!"%end" = false ∧ t.head? = some '%') {ks : List Kept} (hk : ∀ k ∈ ks, k.OK tags)
    {p : Packages} (h : p.Writable) (hs : p.Supported cfg.version) {ver : Nat} (hver : ver ≥ Version.F8) :
    ∃ items, IsDoc cfg.version tags ((if ks ≠ [] then c!"\n" ++ ks.flatMap Kept.text else []) ++ (p.str ver).1) items ∧
      ∀ (n : Nat) (v : View C), v.packages = {} → ∃ wn q,
        execAll cfg disp (numbered n items) v = ({ v with nullStrings := v.nullStrings ++ keptBack ks, packages := q, warnings := v.warnings ++ wn }, none) ∧
        SelectedBack p q := by
  have hsame : ∀ (n : Nat) (v : View C), Item.exec cfg disp n v (.skip c!"\n") = (v, none) := fun _ _ => rfl
  have hmerge : ∀ (k : Kept) (ks : List Kept) (e : Str) (n : Nat) (v : View C), Item.exec cfg disp n v ((k.merge ks).item e) =
      ({ v with nullStrings := v.nullStrings ++ keptBack (k :: ks) }, none) := by
    intro k ks e n v
    simp only [Item.exec, Kept.item]
    rw [nullString_eq (fun l hl => by obtain ⟨x, _, rfl⟩ := List.mem_map.1 hl; simp)]
    rfl
  by_cases hu : p.Untouched
  · rw [packages_untouched hu, List.append_nil]
    cases ks with
    | nil =>
      refine ⟨[], IsDoc.nil, fun n v hv => ⟨[], {}, ?_, fun _ => rfl, fun hn => absurd hu hn⟩⟩
      simp only [numbered, execAll, keptBack, List.append_nil]
      rw [← hv]
    | cons k t =>
      refine ⟨[.skip c!"\n"] ++ [(k.merge t).item []], ?_, fun n v hv => ⟨[], {}, ?_, fun _ => rfl, fun hn => absurd hu hn⟩⟩
      · rw [if_pos (by simp)]
        have := kept_isDoc (v := cfg.version) (ks := t) (fun t ht' => (ht t ht').1) (hk k (by simp)) (fun x hx => hk x (by simp [hx])) (.inl rfl)
        rw [List.append_nil] at this
        exact IsDoc.append (IsDoc.skip (l := []) (by simp [NoBreak]) (by decide)) this (.inr rfl)
      · simp only [List.cons_append, List.nil_append, numbered, execAll, hsame, hmerge, List.append_nil]
        rw [← hv]
  · have hp : IsDoc cfg.version tags (p.str ver).1 p.items := ⟨packages_lines h hu hver, packages_noIncl p, packages_wf h (fun t ht' => (ht t ht').2) hs⟩
    cases ks with
    | nil =>
      refine ⟨p.items, by simpa using hp, fun n v hv => ?_⟩
      obtain ⟨wn, q, h1, h2⟩ := packages_exec (cfg := cfg) (disp := disp) h hs hu (n + 1) v hv
      refine ⟨wn, q, ?_, h2⟩
      have e : numbered n p.items = [(n, .skip c!"\n"), (n + 1, .pkgs (p.opts.map (·.tok.text)) p.hdr (p.body ++ [c!"\n"]) c!"%end\n")] := rfl
      rw [e]
      simp only [execAll, hsame, h1, keptBack, List.append_nil]
    | cons k t =>
      obtain ⟨rest, hrest⟩ : ∃ rest, (p.str ver).1 = '\n' :: rest := by
        rw [packages_str_eq h hu hver]; exact ⟨_, rfl⟩
      have hpl : splitLines rest = (p.items.tail).flatMap Item.lines := by
        have := hp.lines
        rw [hrest, show '\n' :: rest = [] ++ '\n' :: rest from rfl, splitLines_line (by simp [NoBreak])] at this
        exact (List.cons.inj this).2
      have hp' : IsDoc cfg.version tags rest p.items.tail :=
        ⟨hpl, fun it hit => hp.noIncl it (List.mem_of_mem_tail hit), fun it hit => hp.wf it (List.mem_of_mem_tail hit)⟩
      refine ⟨[.skip c!"\n"] ++ ([(k.merge t).item c!"\n"] ++ p.items.tail), ?_, fun n v hv => ?_⟩
      · have hkd := kept_isDoc (v := cfg.version) (ks := t) (fun t ht' => (ht t ht').1) (hk k (by simp)) (fun x hx => hk x (by simp [hx])) (.inr rfl)
        have := IsDoc.append (IsDoc.skip (v := cfg.version) (tags := tags) (l := []) (by simp [NoBreak]) (by decide)) (IsDoc.append hkd hp' (.inr (last_nl _))) (.inr rfl)
        have e : (if k :: t ≠ [] then c!"\n" ++ (k :: t).flatMap Kept.text else []) ++ (p.str ver).1 =
            [] ++ c!"\n" ++ ((k :: t).flatMap Kept.text ++ c!"\n" ++ rest) := by
          rw [if_pos (by simp), hrest]; simp
        rw [e]
        exact this
      · obtain ⟨wn, q, h1, h2⟩ := packages_exec (cfg := cfg) (disp := disp) h hs hu (n + 1 + ((k.merge t).item c!"\n").lines.length)
          { v with nullStrings := v.nullStrings ++ keptBack (k :: t) } hv
        refine ⟨wn, q, ?_, h2⟩
        have e : numbered n ([Item.skip c!"\n"] ++ ([(k.merge t).item c!"\n"] ++ p.items.tail)) =
            [(n, .skip c!"\n"), (n + 1, (k.merge t).item c!"\n"),
             (n + 1 + ((k.merge t).item c!"\n").lines.length, .pkgs (p.opts.map (·.tok.text)) p.hdr (p.body ++ [c!"\n"]) c!"%end\n")] := rfl
        rw [e]
        simp only [execAll, hsame, hmerge, h1]

/-- C54: reading a written kickstart file back with a new parser gives the scripts (in order, up to a
line feed at the end), the platform, the package selection (group lists sorted) and the kept sections (run
together, see C41), and hands exactly the lines that the commands wrote to the commands, in order. -/
theorem C54_file_roundtrip {h : PState (Handler σ δ)} {ver : Str} {version sver : Nat} {text : Str} {p : Packages}
    (hw : writeHandler ver version sver h = .ok (text, p)) (hver : NoBreak ver) (hplat : NoBreak h.platform) (hsver : sver ≥ Version.F8)
    (hc : Clean s) (hpend : ∀ t, s.pending t = []) (hpk : s.packages = {})
    (ht : ∀ t ∈ s.tags, startsWith t c!"%end" = false ∧ t.head? = some '%')
    {items : List Item} (hdoc : IsDoc cfg.version s.tags h.cmds.str items) (hend : h.cmds.str = [] ∨ h.cmds.str.getLast? = some '\n')
    (hitems : ∀ it ∈ items, CommandItem it)
    {c : C} (hrun : runCommands disp (if h.platform = [] then 2 else 3) items s.cmds = (c, none))
    (hscr : ∀ sc ∈ h.scripts, sc.Writable s.tags)
    {ks : List Kept} (hks : h.nullStrings = ks.map Kept.text) (hkok : ∀ k ∈ ks, k.OK s.tags)
    (hpw : h.packages.Writable) (hps : h.packages.Supported cfg.version) :
    let r := readString cfg w disp d text s
    r.2 = none ∧ r.1.cmds = c ∧ r.1.platform = (if h.platform = [] then s.platform else strip h.platform) ∧
    r.1.scripts.map (fun x => { x with lineno := none }) =
      s.scripts.map (fun x => { x with lineno := none }) ++ h.scripts.map (fun sc => { sc with script := sc.ended, lineno := none }) ∧
    r.1.nullStrings = s.nullStrings ++ keptBack ks ∧
    (h.packages.Untouched → r.1.packages = {}) ∧ (¬ h.packages.Untouched → ({ h.packages with seen := true } : Packages).Reordered r.1.packages) ∧
    r.1.errorsCount = s.errorsCount := by
  obtain ⟨name, hn, rfl⟩ := writeHandler_ok hw
  have hname := versionName_line hn
  obtain ⟨titems, htd, hte⟩ := tail_exec (cfg := cfg) (disp := disp) ht hkok hpw hps hsver
  have htail : (if h.nullStrings ≠ [] then c!"\n" ++ h.nullStrings.flatten else []) = (if ks ≠ [] then c!"\n" ++ ks.flatMap Kept.text else []) := by
    rw [hks]
    cases ks <;> simp [List.flatMap]
  rw [htail] at hw ⊢
  have hsend : h.scripts.flatMap (Script.str sver) = [] ∨ (h.scripts.flatMap (Script.str sver)).getLast? = some '\n' := by
    cases hr : h.scripts.reverse with
    | nil => rw [List.reverse_eq_nil_iff] at hr; rw [hr]; exact .inl rfl
    | cons sc t =>
      have : h.scripts = t.reverse ++ [sc] := by rw [← List.reverse_reverse h.scripts, hr]; simp
      right
      rw [this, List.flatMap_append, List.flatMap_singleton, Script.str_eq hsver]
      rw [show c!"%end\n" = c!"%end" ++ c!"\n" from rfl, ← List.append_assoc, ← List.append_assoc]
      exact last_nl _
  have hd := (header_isDoc (v := cfg.version) (tags := s.tags) hver hplat hname.1).append
    (hdoc.append ((scripts_isDoc (v := cfg.version) hscr hsver).append htd hsend) hend) (.inr (header_last _ _ _))
  obtain ⟨hview, herr, _, _⟩ := readString_flat (cfg := cfg) (w := w) (disp := disp) (d := d) hc hd.lines hd.noIncl hd.wf
  generalize readString cfg w disp d _ s = r at *
  rw [numbered_append, numbered_append, numbered_append, execAll_append, header_exec] at hview herr
  have hlen : 0 + ((headerItems ver h.platform name).flatMap Item.lines).length = if h.platform = [] then 2 else 3 := by
    unfold headerItems
    by_cases e : h.platform = [] <;> simp [e, Item.lines]
  rw [hlen] at hview herr
  simp only at hview herr
  rw [execAll_append, commands_exec hitems _ _ hrun] at hview herr
  simp only at hview herr
  rw [execAll_append] at hview herr
  obtain ⟨new, wn, pd, h1, h2, h3⟩ := execAll_written (cfg := cfg) (disp := disp) h.scripts hscr
    ((if h.platform = [] then 2 else 3) + (items.flatMap Item.lines).length)
    { s.view with platform := if h.platform = [] then s.view.platform else strip h.platform, cmds := c } hpend
  rw [h1] at hview herr
  simp only at hview herr
  obtain ⟨wn', q, h4, h5, h6⟩ := hte ((if h.platform = [] then 2 else 3) + (items.flatMap Item.lines).length + ((h.scripts.flatMap Script.items).flatMap Item.lines).length)
    { s.view with platform := if h.platform = [] then s.view.platform else strip h.platform, cmds := c,
                  scripts := s.view.scripts ++ new, warnings := s.view.warnings ++ wn, pending := pd } hpk
  rw [h4] at hview herr
  have e1 : r.1.packages = q := congrArg View.packages hview
  have e2 : r.1.scripts = s.scripts ++ new := congrArg View.scripts hview
  refine ⟨herr, congrArg View.cmds hview, congrArg View.platform hview, ?_, congrArg View.nullStrings hview, ?_, ?_, congrArg View.errorsCount hview⟩
  · rw [e2, List.map_append, h2]
  · rw [e1]; exact h5
  · rw [e1]; exact h6

/-- Commands that remember all words. -/
def collect : Disp (List Str) := fun _ ws _ c => (c ++ ws, none)

/-- A handler with everything in it. -/
def fullSample : PState (Handler (Nat × List Str) Str) :=
  { cmds := ((Handler.build sampleMap none none).dispatch 7 [c!"part", c!"/home"] c!"part /home\n").1, scripts := writableSample, packages := writablePackages, platform := c!"x86 64",
    nullStrings := [Kept.text ⟨c!"%addon", [c!"foo", c!"--x=1"], [c!"a = b"]⟩, Kept.text ⟨c!"%addon", [c!"foo", c!"--x=1"], []⟩] }

/-- The lines of its commands. -/
def fullSampleItems : List Item :=
  [.cmd c!"F23_Reboot 0\n" [c!"F23_Reboot", c!"0"], .cmd c!"F29_AutoPart 0\n" [c!"F29_AutoPart", c!"0"], .cmd c!"F34_Partition 1/home\n" [c!"F34_Partition", c!"1/home"]]

example : ∃ text p, writeHandler c!"3.31" Version.F34 Version.F34 fullSample = .ok (text, p) ∧
    Version.versionFromFile (fun _ => .ok text) c!"ks.cfg" = .ok Version.F34 ∧
    let r := readString { version := Version.F34 } sampleWorld collect 2 text { cmds := [] }
    r.2 = none ∧ r.1.cmds = [c!"F23_Reboot", c!"0", c!"F29_AutoPart", c!"0", c!"F34_Partition", c!"1/home"] ∧ r.1.platform = c!"x86 64" ∧ r.1.scripts.length = 2 ∧
    r.1.nullStrings = [c!"%addon foo --x=1\na = b\n\n\n\n%end%addon foo --x=1\n\n%end"] ∧ ({ writablePackages with seen := true } : Packages).Reordered r.1.packages := by
  have hw : ∃ text p, writeHandler c!"3.31" Version.F34 Version.F34 fullSample = .ok (text, p) := ⟨_, _, rfl⟩
  obtain ⟨text, p, hw⟩ := hw
  refine ⟨text, p, hw, C52_version hw (by decide) (by decide) rfl, ?_⟩
  have := C54_file_roundtrip (s := { cmds := [] }) (cfg := { version := Version.F34 }) (w := sampleWorld) (disp := collect) (d := 2) hw (by decide) (by decide) (by decide)
    (clean_new _) (pending_new _) rfl (by decide) (items := fullSampleItems)
    (isDoc_of_check (by decide +kernel)) (.inr (by decide +kernel)) (by simp [fullSampleItems, CommandItem])
    (c := [c!"F23_Reboot", c!"0", c!"F29_AutoPart", c!"0", c!"F34_Partition", c!"1/home"]) (by decide +kernel) writableSample_ok
    (ks := [⟨c!"%addon", [c!"foo", c!"--x=1"], [c!"a = b"]⟩, ⟨c!"%addon", [c!"foo", c!"--x=1"], []⟩]) rfl
    (by
      intro k hk
      simp only [List.mem_cons, List.not_mem_nil, or_false] at hk
      rcases hk with rfl | rfl
      · exact keptSample_ok _ (by decide)
      · exact keptSample_ok _ (by simp))
    writablePackages_ok.1 writablePackages_ok.2.1
  generalize readString _ _ _ _ text _ = r at *
  obtain ⟨h1, h2, h3, h4, h5, _, h7, _⟩ := this
  refine ⟨h1, h2, h3, ?_, h5.trans (by decide +kernel), h7 writablePackages_ok.2.2⟩
  have := congrArg List.length h4
  simpa [fullSample, writableSample] using this

end Ks
