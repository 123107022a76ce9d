import Verif.Props.RawLineProps
import Verif.Commands.FixedLogic
/-!
# C82: `iscsiname`, `updates` and the display modes from F26
-/
namespace Ks

open Cmd

/-! ## A line without a comment -/

/-- A text of one line: if a new object reads the line and then writes the same text, the text is stable. -/
theorem bare_stable {v : Nat} (hv : Supported v) {n : Str} {c : Command} (hc : (commandMap v).lookup n = some c) (hla : looksAt (attrName c.name) = [])
    {line : Str} {m : Str} (hm : (commandMap v).lookup m = some c) {ws : List Str} (hnb : NoBreak line) (hb : isBlankOrComment (line ++ c!"\n") = false)
    (hs : shlexSplit (line ++ c!"\n") true = .ok (m :: ws)) (hne : m ≠ []) (hp : m.head? ≠ some '%') {text : Str} {Q : Ns → Prop} (ht : text = line ++ c!"\n")
    (hrun : ∀ i : Inst CState, i.attrs = c.init → i.currentCmd = m → ∃ j x, c.parse (fun _ => none) ws i = (j, .ok x) ∧ c.stored (j, .ok x) = j ∧ c.str j = text ∧ Q (selfOf j)) :
    ReadBack v n text Q := by
  have hitems : lineItems text = [.cmd (line ++ c!"\n") (m :: ws)] := by
    have e : splitLines (line ++ c!"\n") = [line ++ c!"\n"] := by
      have := splitLines_line (rest := []) hnb
      simpa [splitLines] using this
    rw [ht]
    unfold lineItems
    rw [e]
    simp only [List.map_cons, List.map_nil, lineItem, hb, hs]
    rfl
  have hcmd : CmdLine (line ++ c!"\n") (m :: ws) := by
    refine ⟨hb, hs, ?_⟩
    cases m with
    | nil => exact absurd rfl hne
    | cons a t => exact ⟨a, t, _, rfl, fun e => hp (by rw [e]; rfl)⟩
  obtain ⟨j, x, h1, h2, h3, h4⟩ := hrun (c.new.inst.noted m (line ++ c!"\n") 1) rfl rfl
  refine back_of_class hv hc (t := fun _ => none) (fun a ha => by rw [hla] at ha; cases ha) (.inr ?_) ?_ (i := j) ?_ h3 h4
  · rw [ht]; simp
  · rw [hitems]
    intro it hit
    rw [List.mem_singleton] at hit
    subst hit
    refine ⟨hcmd, ?_⟩
    rw [show (m :: ws).headD [] = m from rfl, hm, hc]
  · rw [hitems]
    simp only [runClass]
    rw [h1]
    simp only
    rw [h2]

theorem word_line {n w : Str} (hn : n ≠ [] ∧ n.all safeChar = true) (hw : PlainWord w) :
    NoBreak (n ++ c!" " ++ w) ∧ isBlankOrComment (n ++ c!" " ++ w ++ c!"\n") = false ∧ shlexSplit (n ++ c!" " ++ w ++ c!"\n") true = .ok [n, w] := by
  have hns : ∀ c ∈ n, isSpace c = false := fun c hc => safe_not_space (List.all_eq_true.1 hn.2 c hc)
  refine ⟨noBreak_line (fun c hc => break_space (hns c hc)) (fun c hc => break_space (hw.2.2 c hc).2), ?_, ?_⟩
  · rw [List.append_assoc, List.append_assoc]
    refine notBlank hn.1 fun c hc => ?_
    have hm := List.mem_of_head? hc
    refine ⟨hns c hm, ?_⟩
    rintro rfl
    exact absurd (List.all_eq_true.1 hn.2 _ hm) (by decide)
  · refine raw_words hn.1 hn.2 ?_
    have := shlexGo_word true (w.map Seg.bare) [] c!"\n" (word_bare_ok hw.1 fun c hc => (hw.2.2 c hc).1)
    rw [word_bare_render, word_bare_text] at this
    unfold shlexSplit
    rw [this]
    rfl

/-! ## `iscsiname` and `updates` -/

theorem iscsiname_class : ∀ y ∈ commandMaps, y.2.lookup c!"iscsiname" = none ∨ y.2.lookup c!"iscsiname" = some FC6_IscsiName.cls := by
  unfold commandMaps
  repeat' (first | exact List.forall_mem_nil _ | refine List.forall_mem_cons.2 ⟨?_, ?_⟩)
  all_goals first | exact .inl rfl | exact .inr rfl

theorem updates_class : ∀ y ∈ commandMaps, y.2.lookup c!"updates" = none ∨ y.2.lookup c!"updates" = some F7_Updates.cls ∨ y.2.lookup c!"updates" = some F34_Updates.cls := by
  unfold commandMaps
  repeat' (first | exact List.forall_mem_nil _ | refine List.forall_mem_cons.2 ⟨?_, ?_⟩)
  all_goals first | exact .inl rfl | exact .inr (.inl rfl) | exact .inr (.inr rfl)

theorem iscsiname_text {d : Ns} {w : Str} (hw : w ≠ []) (h : d.getD c!"iscsiname" = .str w) : FC6_IscsiName.strOut.render d = c!"iscsiname" ++ c!" " ++ w ++ c!"\n" := by
  obtain ⟨b, t, rfl⟩ := List.exists_cons_of_ne_nil hw
  simp [FC6_IscsiName.strOut, Out.render, pieceText, Cond.eval, Frag.render, h, Val.truthy, Val.fmt]

theorem iscsiname_back {v : Nat} (hv : Supported v) (hc : (commandMap v).lookup c!"iscsiname" = some FC6_IscsiName.cls) {i : Inst CState} {w : Str} (hw : PlainWord w)
    (hi : (selfOf i).getD c!"iscsiname" = .str w) : ReadBack v c!"iscsiname" (FC6_IscsiName.cls.str i) fun d => d.getD c!"iscsiname" = .str w := by
  obtain ⟨l1, l2, l3⟩ := word_line (n := c!"iscsiname") (by decide) hw
  refine bare_stable hv hc (by decide) hc l1 l2 l3 (by decide) (by decide) (iscsiname_text hw.1 hi) fun i _ _ => ?_
  obtain ⟨ns, hk, hns⟩ := front_word (l := some (i.lineno : Int)) (p := FC6_IscsiName.op) (a := FC6_IscsiName.op.actions[0]) (by decide +kernel) hw.2.1 (.inl rfl) (ts := []) (by simp)
  have hg : ns.getD c!"iqn" = .list [w] := by unfold Ns.getD; rw [show ns.get c!"iqn" = _ from hns.2.1]; rfl
  have hpar : ∃ j, FC6_IscsiName.parse FC6_IscsiName.info [w] (fun _ => none) i = (j, .ok ()) ∧ j.attrs.attrs = i.attrs.attrs.set c!"iscsiname" (.str w) := by
    simp only [FC6_IscsiName.parse, bind, M.parseKnown, FC6_IscsiName.info]
    rw [show FC6_IscsiName.op.parseKnown (some (i.lineno : Int)) [w] = _ from hk]
    simp only [hg, M.assert, Val.len, M.failIf, M.lift, Val.index, M.set]
    exact ⟨_, rfl, rfl⟩
  obtain ⟨j, h1, h2⟩ := hpar
  have hfin : (selfOf j).getD c!"iscsiname" = .str w := by
    rw [selfOf_getD (by decide), h2]
    exact (Ns.getD_set ..).trans (if_pos rfl)
  refine ⟨j, none, ?_, rfl, (iscsiname_text hw.1 hfin).trans (iscsiname_text hw.1 hi).symm, hfin⟩
  simp only [FC6_IscsiName.cls, plainCmd, h1]

theorem updates_text {d : Ns} {w : Str} (hw : w ≠ []) (hf : w ≠ c!"floppy") (h : d.getD c!"url" = .str w) : F7_Updates.strOut.render d = c!"updates" ++ c!" " ++ w ++ c!"\n" := by
  obtain ⟨b, t, rfl⟩ := List.exists_cons_of_ne_nil hw
  have e : (Cond.eq c!"url" (.str c!"floppy")).eval d = false := by
    simp only [Cond.eval, h]
    simpa [Val.pyEq] using hf
  have e2 : (Cond.tru c!"url").eval d = true := by simp [Cond.eval, h, Val.truthy]
  unfold F7_Updates.strOut Out.render
  simp only [List.map_cons, List.map_nil, pieceText, e, show ∀ a b : Cond, (Cond.and a b).eval d = (a.eval d && b.eval d) from fun _ _ => rfl, show ∀ a : Cond, (Cond.not a).eval d = !a.eval d from fun _ => rfl, e2]
  simp [Frag.render, h, Val.fmt]

theorem floppy_text {d : Ns} (h : d.getD c!"url" = .str c!"floppy") : F7_Updates.strOut.render d = c!"updates\n" := by
  have e : (Cond.eq c!"url" (.str c!"floppy")).eval d = true := by
    simp only [Cond.eval, h]
    decide
  unfold F7_Updates.strOut Out.render
  simp only [List.map_cons, List.map_nil, pieceText, e, show ∀ a b : Cond, (Cond.and a b).eval d = (a.eval d && b.eval d) from fun _ _ => rfl, show ∀ a : Cond, (Cond.not a).eval d = !a.eval d from fun _ => rfl]
  simp [Frag.render]

theorem updates34_text {d : Ns} {w : Str} (hw : w ≠ []) (h : d.getD c!"url" = .str w) : F34_Updates.strOut.render d = c!"updates" ++ c!" " ++ w ++ c!"\n" := by
  obtain ⟨b, t, rfl⟩ := List.exists_cons_of_ne_nil hw
  simp [F34_Updates.strOut, Out.render, pieceText, Cond.eval, Frag.render, h, Val.truthy, Val.fmt]

theorem updates_back {v : Nat} (hv : Supported v) (hc : (commandMap v).lookup c!"updates" = some F7_Updates.cls) {i : Inst CState} {w : Str} (hw : PlainWord w)
    (hi : (selfOf i).getD c!"url" = .str w) : ReadBack v c!"updates" (F7_Updates.cls.str i) fun d => d.getD c!"url" = .str w := by
  by_cases hf : w = c!"floppy"
  · subst hf
    refine bare_stable hv hc (by decide) (line := c!"updates") hc (by decide) (by decide) (ws := []) rfl (by decide) (by decide) (floppy_text hi) fun i _ _ => ?_
    obtain ⟨j, h1, h2⟩ : ∃ j, F7_Updates.parse F7_Updates.info [] (fun _ => none) i = (j, .ok ()) ∧ j.attrs.attrs = i.attrs.attrs.set c!"url" (.str c!"floppy") := ⟨_, rfl, rfl⟩
    have hfin : (selfOf j).getD c!"url" = .str c!"floppy" := by
      rw [selfOf_getD (by decide), h2]
      exact (Ns.getD_set ..).trans (if_pos rfl)
    refine ⟨j, none, ?_, rfl, (floppy_text hfin).trans (floppy_text hi).symm, hfin⟩
    simp only [F7_Updates.cls, plainCmd, h1]
  · obtain ⟨l1, l2, l3⟩ := word_line (n := c!"updates") (by decide) hw
    refine bare_stable hv hc (by decide) hc l1 l2 l3 (by decide) (by decide) (updates_text hw.1 hf hi) fun i _ _ => ?_
    obtain ⟨ns, hk, hns⟩ := front_word (l := some (i.lineno : Int)) (p := F7_Updates.op) (a := F7_Updates.op.actions[0]) (by decide +kernel) hw.2.1 (.inr rfl) (ts := []) (by simp)
    have hg : ns.getD c!"updates" = .list [w] := by unfold Ns.getD; rw [show ns.get c!"updates" = _ from hns.2.1]; rfl
    have hpar : ∃ j, F7_Updates.parse F7_Updates.info [w] (fun _ => none) i = (j, .ok ()) ∧ j.attrs.attrs = i.attrs.attrs.set c!"url" (.str w) := by
      simp only [F7_Updates.parse, bind, M.parseKnown, F7_Updates.info]
      rw [show F7_Updates.op.parseKnown (some (i.lineno : Int)) [w] = _ from hk]
      simp only
      generalize ns.getD c!"updates" = x at hg
      subst hg
      exact ⟨_, rfl, rfl⟩
    obtain ⟨j, h1, h2⟩ := hpar
    have hfin : (selfOf j).getD c!"url" = .str w := by
      rw [selfOf_getD (by decide), h2]
      exact (Ns.getD_set ..).trans (if_pos rfl)
    refine ⟨j, none, ?_, rfl, (updates_text hw.1 hf hfin).trans (updates_text hw.1 hf hi).symm, hfin⟩
    simp only [F7_Updates.cls, plainCmd, h1]

theorem updates34_back {v : Nat} (hv : Supported v) (hc : (commandMap v).lookup c!"updates" = some F34_Updates.cls) {i : Inst CState} {w : Str} (hw : PlainWord w)
    (hi : (selfOf i).getD c!"url" = .str w) : ReadBack v c!"updates" (F34_Updates.cls.str i) fun d => d.getD c!"url" = .str w := by
  obtain ⟨l1, l2, l3⟩ := word_line (n := c!"updates") (by decide) hw
  refine bare_stable hv hc (by decide) hc l1 l2 l3 (by decide) (by decide) (updates34_text hw.1 hi) fun i _ _ => ?_
  have hgv : getValues (some (i.lineno : Int)) F34_Updates.op.actions[0] [w] = .ok (.str w) := by
    have e : ([w].erase c!"--" : List Str) = [w] := erase_word hw.2.1
    unfold getValues
    rw [show (F34_Updates.op.actions[0] : Action).opts = [] from by decide +kernel, if_pos rfl, e]
    rfl
  obtain ⟨ns, hk, hns⟩ := known_front (l := some (i.lineno : Int)) (p := F34_Updates.op) (a := F34_Updates.op.actions[0]) (by decide +kernel) (by decide +kernel) (by decide +kernel) (by decide +kernel) hw.2.1 (by rfl)
    (ts := []) (by simp) (by simp) hgv (fun b hb _ => .inl (by revert b; decide +kernel)) (by simp)
  have hg : (setToObj ns i.attrs.attrs).get c!"url" = some (.str w) := by
    rw [C16_set_to_obj ns _ hns.1, show ns.get c!"url" = some (.str w) from hns.2.1]
  have hpar : ∃ j, F34_Updates.parse F34_Updates.info [w] (fun _ => none) i = (j, .ok ()) ∧ j.attrs.attrs = setToObj ns i.attrs.attrs := by
    simp only [F34_Updates.parse, bind, M.parseArgs, F34_Updates.info]
    rw [show F34_Updates.op.parseArgs (some (i.lineno : Int)) [w] = _ from parseArgs_of_known hk]
    simp only [M.setToSelf]
    exact ⟨_, rfl, rfl⟩
  obtain ⟨j, h1, h2⟩ := hpar
  have hfin : (selfOf j).getD c!"url" = .str w := new_getD h2 (by decide) hg
  refine ⟨j, none, ?_, rfl, (updates34_text hw.1 hfin).trans (updates34_text hw.1 hi).symm, hfin⟩
  simp only [F34_Updates.cls, plainCmd, h1]

/-! ## The display modes from F26 -/

/-- The texts that are read again as they are, the words of the line, and the settings that the line makes. -/
def modeTexts : List (Str × List Str × Val × Bool) :=
  [(c!"cmdline\n", [c!"cmdline"], .int 0, false), (c!"# Use graphical install\ngraphical\n", [c!"graphical"], .int 1, false),
   (c!"# Use graphical install\ngraphical --non-interactive\n", [c!"graphical", c!"--non-interactive"], .int 1, true),
   (c!"# Use text mode install\ntext\n", [c!"text"], .int 2, false), (c!"# Use text mode install\ntext --non-interactive\n", [c!"text", c!"--non-interactive"], .int 2, true)]

/-- The texts that are refused. -/
def refusedModes : List Str := [c!" --non-interactive\n", c!"cmdline --non-interactive\n"]

theorem mode_texts (d : Ns) : F26_DisplayMode.strText d ∈ [] :: (modeTexts.map (·.1) ++ refusedModes) := by
  have h := Out.gives_sound (o := FC3_DisplayMode.strOut) (as := [.eq c!"displayMode" .none, .eq c!"displayMode" (.int 0), .eq c!"displayMode" (.int 1), .eq c!"displayMode" (.int 2)])
    (ts := [[], c!"cmdline\n", c!"# Use graphical install\ngraphical\n", c!"# Use text mode install\ntext\n"]) (by decide +kernel) d
  unfold F26_DisplayMode.strText
  generalize FC3_DisplayMode.strOut.render d = t at h
  generalize (Cond.tru c!"nonInteractive").eval d = b
  revert t b
  decide +kernel

theorem mode_class : ∀ y ∈ commandMaps, Version.F26 ≤ y.1 → ∀ n ∈ [c!"cmdline", c!"graphical", c!"text"], y.2.lookup n = some F26_DisplayMode.cls := by
  unfold commandMaps
  repeat' (first | exact List.forall_mem_nil _ | refine List.forall_mem_cons.2 ⟨?_, ?_⟩)
  all_goals first | (intro h; exact absurd h (by decide)) | (intro _; simp only [List.forall_mem_cons]; exact ⟨rfl, rfl, rfl, List.forall_mem_nil _⟩)

/-- What the class does with one of the texts. -/
theorem mode_back {v : Nat} (hv : Supported v) (hge : Version.F26 ≤ v) {n : Str} (hn : n ∈ [c!"cmdline", c!"graphical", c!"text"]) : ∀ x ∈ modeTexts,
    ReadBack v n x.1 fun d => d.getD c!"displayMode" = x.2.2.1 ∧ d.getD c!"nonInteractive" = .bool x.2.2.2 := by
  have hcls := mode_class _ (supported_mem hv) hge
  have hc := hcls n hn
  have hla : looksAt (attrName F26_DisplayMode.cls.name) = [] := by decide
  have run : ∀ (m : Str) (ws : List Str) (text : Str) (val : Val) (b : Bool), (m :: ws, text, val, b) ∈ modeTexts.map (fun x => (x.2.1, x.1, x.2.2.1, x.2.2.2)) →
      ∀ i : Inst CState, i.attrs = F26_DisplayMode.cls.init → i.currentCmd = m →
      ∃ j x, F26_DisplayMode.cls.parse (fun _ => none) ws i = (j, .ok x) ∧ F26_DisplayMode.cls.stored (j, .ok x) = j ∧ F26_DisplayMode.cls.str j = text ∧
        ((selfOf j).getD c!"displayMode" = val ∧ (selfOf j).getD c!"nonInteractive" = .bool b) := by
    intro m ws text val b hx i hi hm
    obtain ⟨c, l, k, s, a⟩ := i
    simp only at hi hm
    subst hi hm
    simp only [modeTexts, List.map_cons, List.map_nil, List.mem_cons, List.not_mem_nil, or_false, Prod.mk.injEq, List.cons.injEq] at hx
    rcases hx with ⟨⟨rfl, rfl⟩, rfl, rfl, rfl⟩ | ⟨⟨rfl, rfl⟩, rfl, rfl, rfl⟩ | ⟨⟨rfl, rfl⟩, rfl, rfl, rfl⟩ | ⟨⟨rfl, rfl⟩, rfl, rfl, rfl⟩ | ⟨⟨rfl, rfl⟩, rfl, rfl, rfl⟩ <;>
      exact ⟨_, _, rfl, rfl, rfl, rfl, rfl⟩
  intro x hx
  simp only [modeTexts, List.mem_cons, List.not_mem_nil, or_false] at hx
  rcases hx with rfl | rfl | rfl | rfl | rfl
  · exact bare_stable hv hc hla (line := c!"cmdline") (hcls _ (by decide)) (by decide) (by decide) (ws := []) rfl (by decide) (by decide) rfl (run _ _ _ _ _ (by decide))
  · exact raw_stable hv hc (hcls _ (by decide)) hla (hd := c!"# Use graphical install\n") (by decide) (line := c!"graphical") (ws := []) (by decide) (by decide) rfl (by decide) (by decide) rfl
      fun i h1 h2 _ => run _ _ _ _ _ (by decide) i h1 h2
  · exact raw_stable hv hc (hcls _ (by decide)) hla (hd := c!"# Use graphical install\n") (by decide) (line := c!"graphical --non-interactive") (ws := [c!"--non-interactive"]) (by decide) (by decide) rfl (by decide) (by decide) rfl
      fun i h1 h2 _ => run _ _ _ _ _ (by decide) i h1 h2
  · exact raw_stable hv hc (hcls _ (by decide)) hla (hd := c!"# Use text mode install\n") (by decide) (line := c!"text") (ws := []) (by decide) (by decide) rfl (by decide) (by decide) rfl
      fun i h1 h2 _ => run _ _ _ _ _ (by decide) i h1 h2
  · exact raw_stable hv hc (hcls _ (by decide)) hla (hd := c!"# Use text mode install\n") (by decide) (line := c!"text --non-interactive") (ws := [c!"--non-interactive"]) (by decide) (by decide) rfl (by decide) (by decide) rfl
      fun i h1 h2 _ => run _ _ _ _ _ (by decide) i h1 h2

/-! ## C82 -/

/-- The attribute that the command keeps its word in. -/
def wordKey (n : Str) : Option Str := if n = c!"iscsiname" then some c!"iscsiname" else if n = c!"updates" then some c!"url" else none

theorem object_class {v : Nat} (hv : Supported v) {h : Handler CState Ns} (s : Session v h) {n : Str} {o : Obj CState Ns} (ho : objectOf h n = some o) : (commandMap v).lookup n = some o.cls :=
  (object_dispatch hv s ho 0 [] []).1

/-- C82: what `iscsiname` and `updates` write is stable in every session and the setting is restored, if the setting is a plain word. -/
theorem C82_word {v : Nat} (hv : Supported v) {h : Handler CState Ns} (s : Session v h) {n k w : Str} (hk : wordKey n = some k) (hw : PlainWord w) (hd : (attrsOf h n).getD k = .str w) :
    StableText v n (textOf h n) ∧ (attrsOf (runCommands Handler.dispatch 0 (lineItems (textOf h n)) (newHandler v)).1 n).getD k = .str w := by
  show ReadBack v n (textOf h n) fun d => d.getD k = .str w
  cases ho : objectOf h n with
  | none => unfold attrsOf at hd; rw [ho] at hd; cases hd
  | some o =>
    have hc := object_class hv s ho
    unfold attrsOf at hd
    unfold textOf
    rw [ho] at hd ⊢
    simp only at hd ⊢
    obtain ⟨c, i⟩ := o
    simp only at hc hd ⊢
    unfold wordKey at hk
    split at hk
    · rename_i hn
      subst hn
      cases hk
      rcases iscsiname_class _ (supported_mem hv) with e | e
      · cases e.symm.trans hc
      · obtain rfl := Option.some.inj (hc.symm.trans e)
        exact iscsiname_back hv hc hw hd
    · split at hk
      · rename_i hn
        subst hn
        cases hk
        rcases updates_class _ (supported_mem hv) with e | e | e
        · cases e.symm.trans hc
        · obtain rfl := Option.some.inj (hc.symm.trans e)
          exact updates_back hv hc hw hd
        · obtain rfl := Option.some.inj (hc.symm.trans e)
          exact updates34_back hv hc hw hd
      · cases hk

/-- C82: from F26, in every session, `cmdline`, `graphical` and `text` write nothing, or a text of the table, which is stable and makes the settings of the table, or one of two texts that are refused. -/
theorem C82_modes {v : Nat} (hv : Supported v) (hge : Version.F26 ≤ v) {h : Handler CState Ns} (s : Session v h) {n : Str} (hn : n ∈ [c!"cmdline", c!"graphical", c!"text"]) :
    textOf h n = [] ∨ textOf h n ∈ refusedModes ∨ ∃ x ∈ modeTexts, textOf h n = x.1 ∧ StableText v n (textOf h n) ∧
      (attrsOf (runCommands Handler.dispatch 0 (lineItems (textOf h n)) (newHandler v)).1 n).getD c!"displayMode" = x.2.2.1 ∧
      (attrsOf (runCommands Handler.dispatch 0 (lineItems (textOf h n)) (newHandler v)).1 n).getD c!"nonInteractive" = .bool x.2.2.2 := by
  cases ho : objectOf h n with
  | none => left; unfold textOf; rw [ho]
  | some o =>
    have hc := object_class hv s ho
    have e := Option.some.inj (hc.symm.trans (mode_class _ (supported_mem hv) hge n hn))
    have ht : textOf h n = F26_DisplayMode.strText (selfOf o.inst) := by unfold textOf; rw [ho]; simp only [e]; rfl
    have hm := mode_texts (selfOf o.inst)
    rw [← ht, List.mem_cons, List.mem_append] at hm
    rcases hm with hm | hm | hm
    · exact .inl hm
    · obtain ⟨x, hx, hxt⟩ := List.mem_map.1 hm
      refine .inr (.inr ⟨x, hx, hxt.symm, ?_⟩)
      rw [← hxt]
      exact mode_back hv hge hn x hx
    · exact .inr (.inl hm)

/-- The number of the mode that a command sets. -/
def modeOf (n : Str) : Int := if n = c!"cmdline" then 0 else if n = c!"graphical" then 1 else 2

theorem mode_parse {n : Str} (hn : n ∈ [c!"cmdline", c!"graphical", c!"text"]) {t : Str → Option Bool} {args : List Str} {i : Inst CState} (hi : i.currentCmd = n) {x : Unit}
    (h : (F26_DisplayMode.parse F26_DisplayMode.info args t i).2 = .ok x) :
    let j := (F26_DisplayMode.parse F26_DisplayMode.info args t i).1
    (selfOf j).getD c!"displayMode" = .int (modeOf n) ∧ (n = c!"cmdline" → ((selfOf j).getD c!"nonInteractive").truthy = false) := by
  dsimp only
  obtain ⟨cmd, line, l, seen, ⟨attrs, data, warned⟩⟩ := i
  simp only at hi
  subst hi
  generalize hp : F26_DisplayMode.op.parseArgs (some (l : Int)) args = r
  cases r with
  | error e =>
    exfalso
    simp only [F26_DisplayMode.parse, FC3_DisplayMode.parse, bind, M.parseArgs, F26_DisplayMode.info, hp] at h
    cases h
  | ok ns =>
    have hg : ∀ (m : Val) (a : Ns), (Ns.set a c!"displayMode" m).getD c!"displayMode" = m := fun m a => by rw [Ns.getD_set]; exact if_pos rfl
    have hb : FC3_DisplayMode.parse F26_DisplayMode.info args t ⟨cmd, line, l, seen, ⟨attrs, data, warned⟩⟩ =
        (⟨cmd, line, l, seen, ⟨(setToObj ns attrs).set c!"displayMode" (.int (modeOf cmd)), data, warned ++ (F26_DisplayMode.op.warnings (some (l : Int)) args).map Warn.deprecation⟩⟩, .ok ()) := by
      simp only [FC3_DisplayMode.parse, bind, M.parseArgs, F26_DisplayMode.info, hp]
      simp only [List.mem_cons, List.not_mem_nil, or_false] at hn
      rcases hn with rfl | rfl | rfl <;> rfl
    have hF := M.step (f := fun _ : Unit => do let x1 ← M.currentCmd; let self ← M.self; M.failIf (decide (x1 = c!"cmdline") && (self.getD c!"nonInteractive").truthy) c!"Kickstart command cmdline does not support --non-interactive parameter") hb
    have hF' : F26_DisplayMode.parse F26_DisplayMode.info args t ⟨cmd, line, l, seen, ⟨attrs, data, warned⟩⟩ = _ := hF
    rw [hF'] at h ⊢
    simp only [bind, M.currentCmd, M.self] at h ⊢
    generalize hj : (⟨cmd, line, l, seen, ⟨(setToObj ns attrs).set c!"displayMode" (.int (modeOf cmd)), data, warned ++ (F26_DisplayMode.op.warnings (some (l : Int)) args).map Warn.deprecation⟩⟩ : Inst CState) = j at h ⊢
    have hd : (selfOf j).getD c!"displayMode" = .int (modeOf cmd) := by rw [selfOf_getD (by decide), ← hj]; exact hg _ _
    generalize hq : (decide (cmd = c!"cmdline") && ((selfOf j).getD c!"nonInteractive").truthy) = q at h ⊢
    cases q with
    | true => cases h
    | false =>
      refine ⟨hd, fun e => ?_⟩
      subst e
      exact hq

/-- C82: from F26, in every session, after a line of `cmdline`, `graphical` or `text` that is accepted the mode is that of the line, whatever was set before, and the text is a text of the table for this mode. -/
theorem C82_mode_line {v : Nat} (hv : Supported v) (hge : Version.F26 ≤ v) {h : Handler CState Ns} (s : Session v h) {n : Str} (hn : n ∈ [c!"cmdline", c!"graphical", c!"text"])
    (ho : objectOf h n ≠ none) {l : Nat} {args : List Str} {line : Str} (ok : (h.dispatch l (n :: args) line).2 = none) :
    (attrsOf (h.dispatch l (n :: args) line).1 n).getD c!"displayMode" = .int (modeOf n) ∧ ∃ x ∈ modeTexts, textOf (h.dispatch l (n :: args) line).1 n = x.1 ∧ x.2.2.1 = .int (modeOf n) := by
  obtain ⟨o, ho⟩ := Option.ne_none_iff_exists'.1 ho
  obtain ⟨hc, -, t, h1, h2⟩ := object_dispatch hv s ho l args line
  have e := Option.some.inj (hc.symm.trans (mode_class _ (supported_mem hv) hge n hn))
  rw [ok] at h1
  unfold attrsOf textOf
  rw [h2]
  simp only
  rw [e] at h1 ⊢
  have hpar : ∀ i : Inst CState, i.currentCmd = n → (none = match (F26_DisplayMode.cls.parse t args i).2 with | .error e => some e | .ok _ => none) →
      ∃ j, F26_DisplayMode.cls.stored (F26_DisplayMode.cls.parse t args i) = j ∧ (selfOf j).getD c!"displayMode" = .int (modeOf n) ∧ (n = c!"cmdline" → ((selfOf j).getD c!"nonInteractive").truthy = false) := by
    intro i hi hok
    simp only [F26_DisplayMode.cls, plainCmd] at hok ⊢
    have hm := fun x => mode_parse hn (args := args) (t := t) (i := i) hi (x := x)
    generalize F26_DisplayMode.parse F26_DisplayMode.info args t i = p at hm hok ⊢
    obtain ⟨j, x⟩ := p
    cases x with
    | error e => cases hok
    | ok x => exact ⟨j, rfl, hm x rfl⟩
  obtain ⟨j, hj, hd, hq⟩ := hpar _ (by rfl) h1
  rw [hj]
  refine ⟨hd, ?_⟩
  show ∃ x ∈ modeTexts, F26_DisplayMode.strText (selfOf j) = x.1 ∧ x.2.2.1 = .int (modeOf n)
  generalize selfOf j = d at hd hq
  have hx : ∀ b : Bool, (Cond.tru c!"nonInteractive").eval d = b → (n = c!"cmdline" → b = false) → ∃ x ∈ modeTexts, F26_DisplayMode.strText d = x.1 ∧ x.2.2.1 = .int (modeOf n) := by
    intro b hb hbc
    unfold F26_DisplayMode.strText
    rw [hb]
    simp only [List.mem_cons, List.not_mem_nil, or_false] at hn
    rcases hn with rfl | rfl | rfl
    · rw [hbc rfl]
      refine ⟨_, .head _, ?_, rfl⟩
      show FC3_DisplayMode.strOut.render d = _
      simp only [FC3_DisplayMode.strOut, Out.render, List.map_cons, List.map_nil, pieceText, Cond.eval, hd]; rfl
    · have hr : FC3_DisplayMode.strOut.render d = c!"# Use graphical install\ngraphical\n" := by simp only [FC3_DisplayMode.strOut, Out.render, List.map_cons, List.map_nil, pieceText, Cond.eval, hd]; rfl
      rw [hr]
      cases b
      · exact ⟨_, .tail _ (.head _), by decide +kernel, rfl⟩
      · exact ⟨_, .tail _ (.tail _ (.head _)), by decide +kernel, rfl⟩
    · have hr : FC3_DisplayMode.strOut.render d = c!"# Use text mode install\ntext\n" := by simp only [FC3_DisplayMode.strOut, Out.render, List.map_cons, List.map_nil, pieceText, Cond.eval, hd]; rfl
      rw [hr]
      cases b
      · exact ⟨_, .tail _ (.tail _ (.tail _ (.head _))), by decide +kernel, rfl⟩
      · exact ⟨_, .tail _ (.tail _ (.tail _ (.tail _ (.head _)))), by decide +kernel, rfl⟩
  exact hx _ rfl hq

/-- The settings of which the text is restored. -/
def SmallSettings (v : Nat) (n : Str) (text : Str) (d : Ns) : Prop :=
  (∃ k w, wordKey n = some k ∧ PlainWord w ∧ d.getD k = .str w) ∨ (Version.F26 ≤ v ∧ n ∈ [c!"cmdline", c!"graphical", c!"text"] ∧ text ≠ [] ∧ text ∉ refusedModes)

/-- C82: `C80_file` with less to ask. -/
theorem C82_file {v : Nat} (hv : Supported v) (hl : v ∉ liloVersions) (ls : List (Nat × List Str × Str))
    (hst : ∀ n c, (commandMap v).lookup n = some c → c.prio ≠ none → ¬ Unread (readLines v ls) n → fixedTextsOf v n = none → ¬ WordSettings v n (attrsOf (readLines v ls) n) →
      ¬ RawSettings n (attrsOf (readLines v ls) n) → ¬ SmallSettings v n (textOf (readLines v ls) n) (attrsOf (readLines v ls) n) → ¬ (textOf (readLines v ls) n = [] ∧ c.str c.new.inst = []) →
      (ListCommand v n ∧ n ∈ lossless.map (·.1) ∧ ∀ d ∈ dataOf (readLines v ls) n, WritesAll v n d ∧ OneLine v n d) ∨
      (OneLineOf v ls n ∧ KeepsAll v n (attrsOf (readLines v ls) n) ∧ OneCommand (textOf (readLines v ls) n)) ∨ StableText v n (textOf (readLines v ls) n))
    (hR : ∀ n, textOf (readLines v ls) n ≠ [] → ∀ a ∈ rivals n, textOf (readLines v ls) a = []) (k : Nat) :
    let r := runCommands Handler.dispatch k (lineItems (readLines v ls).str) (newHandler v)
    r.2 = none ∧ r.1.str = (readLines v ls).str := by
  refine C80_file hv hl ls (fun n c hc hp hu hf hw hr he => ?_) hR k
  by_cases h1 : SmallSettings v n (textOf (readLines v ls) n) (attrsOf (readLines v ls) n)
  · refine .inr (.inr ?_)
    rcases h1 with ⟨k, w, hk, hw, hd⟩ | ⟨hge, hn, hne, hnr⟩
    · exact (C82_word hv (readLines_session v ls) hk hw hd).1
    · rcases C82_modes hv hge (readLines_session v ls) hn with h | h | ⟨x, hx, -, h, -⟩
      · exact absurd h hne
      · exact absurd h hnr
      · exact h
  · exact hst n c hc hp hu hf hw hr h1 he

/-! ### The hypotheses can be met -/

theorem C82_cases :
    (attrsOf (readLines Version.F34 [(1, [c!"iscsiname", c!"iqn.1994-05.com:x"], [])]) c!"iscsiname").getD c!"iscsiname" = .str c!"iqn.1994-05.com:x" ∧ PlainWord c!"iqn.1994-05.com:x" ∧
    (attrsOf (readLines Version.F34 [(1, [c!"updates", c!"http://x/u.img"], [])]) c!"updates").getD c!"url" = .str c!"http://x/u.img" ∧
    textOf (readLines Version.F33 [(1, [c!"updates"], [])]) c!"updates" = c!"updates\n" ∧
    textOf (readLines Version.F34 [(1, [c!"text", c!"--non-interactive"], [])]) c!"text" = c!"# Use text mode install\ntext --non-interactive\n" := by decide +kernel

/-- The options of a refused line stay: after `cmdline --non-interactive`, which is refused, exactly this line is written (/repo/pykickstart/commands/displaymode.py:104-111). -/
theorem C82_cmdline :
    let h := readLines Version.F34 [(1, [c!"cmdline", c!"--non-interactive"], [])]
    ((newHandler Version.F34).dispatch 1 [c!"cmdline", c!"--non-interactive"] []).2 ≠ none ∧ textOf h c!"cmdline" = c!"cmdline --non-interactive\n" ∧ ¬ StableText Version.F34 c!"cmdline" (textOf h c!"cmdline") := by
  decide +kernel

/-- A file with the three kinds of commands. -/
def smallFile : List (Nat × List Str × Str) :=
  [(1, [c!"iscsiname", c!"iqn.1994-05.com:x"], []), (2, [c!"updates", c!"http://x/u.img"], []), (3, [c!"text", c!"--non-interactive"], []), (4, [c!"graphical"], [])]

theorem smallFile_text : (readLines Version.F34 smallFile).str =
    c!"# Use graphical install\ngraphical\nupdates http://x/u.img\n# System bootloader configuration\nbootloader --location=none\niscsiname iqn.1994-05.com:x\n" := by decide +kernel

/-- The command that is read last decides; the mode is not interactive only if its line says so. -/
theorem C82_mode_case :
    let h := readLines Version.F34 [(1, [c!"text", c!"--non-interactive"], [])]
    (objectOf h c!"graphical").isSome ∧ (h.dispatch 2 [c!"graphical"] []).2 = none ∧ textOf (h.dispatch 2 [c!"graphical"] []).1 c!"graphical" = c!"# Use graphical install\ngraphical\n" ∧
    SmallSettings Version.F34 c!"text" (textOf h c!"text") (attrsOf h c!"text") := by
  refine ⟨by decide +kernel, by decide +kernel, by decide +kernel, .inr (by decide +kernel)⟩

end Ks
