import Verif.Commands.WordLogic
import Verif.Props.FixedProps
/-!
# C78: the language, keyboard, time zone and root password are read again as they are written
-/
namespace Ks

open Cmd

/-! ## Specification -/

/-- A character that needs no quoting and is no white space. -/
def PlainChar (c : Char) : Prop := BareChar true c ∧ isSpace c = false

instance (c : Char) : Decidable (PlainChar c) := by unfold PlainChar BareChar; infer_instance

/-- A word that is not taken for an option. -/
def PlainWord (w : Str) : Prop := w ≠ [] ∧ startsWith w c!"-" = false ∧ ∀ c ∈ w, PlainChar c

instance (w : Str) : Decidable (PlainWord w) := by unfold PlainWord; infer_instance

/-- An element of a list that is written with commas. -/
def PlainElem (w : Str) : Prop := w ≠ [] ∧ ∀ c ∈ w, PlainChar c ∧ c ≠ ','

instance (w : Str) : Decidable (PlainElem w) := by unfold PlainElem; infer_instance

/-! ## A line of words -/

/-- Words with what is before each. -/
def wordsText (g : List (Str × Word)) : Str := (g.map fun x => x.1 ++ x.2.render).flatten

theorem shlex_gaps {g : List (Str × Word)} (h : ∀ x ∈ g, x.1 ≠ [] ∧ (∀ c ∈ x.1, c = ' ') ∧ x.2.Ok true) (tok : Str) :
    shlexGo true .word tok (wordsText g ++ c!"\n") = .ok (tok :: g.map fun x => x.2.text) := by
  induction g generalizing tok with
  | nil => rfl
  | cons x g ih =>
    obtain ⟨h1, h2, h3⟩ := h x (by simp)
    have e : wordsText (x :: g) ++ c!"\n" = x.1 ++ (x.2.render ++ (wordsText g ++ c!"\n")) := by simp [wordsText]
    rw [e, shlexGo_word_blank _ _ _ _ h1 (fun c hc => by rw [h2 c hc]; rfl), shlexGo_word _ _ _ _ h3, ih fun y hy => h y (by simp [hy])]
    rfl

theorem shlex_line {n : Str} (hn : PlainWord n) {g : List (Str × Word)} (h : ∀ x ∈ g, x.1 ≠ [] ∧ (∀ c ∈ x.1, c = ' ') ∧ x.2.Ok true) :
    shlexSplit (n ++ wordsText g ++ c!"\n") true = .ok (n :: g.map fun x => x.2.text) := by
  unfold shlexSplit
  have := shlexGo_word true (n.map Seg.bare) [] (wordsText g ++ c!"\n") (word_bare_ok hn.1 fun c hc => (hn.2.2 c hc).1)
  rw [word_bare_render, word_bare_text] at this
  rw [List.append_assoc, this]
  exact shlex_gaps h n

theorem break_space {c : Char} (h : isSpace c = false) : isLineBreak c = false := by
  simp only [isSpace, isLineBreak, Bool.or_eq_false_iff, Bool.and_eq_false_iff, decide_eq_false_iff_not, beq_eq_false_iff_ne] at h ⊢
  omega

/-- The text is stable, and the settings that a new handler has after reading it have the property `Q`. -/
def ReadBack (v : Nat) (n text : Str) (Q : Ns → Prop) : Prop :=
  StableText v n text ∧ Q (attrsOf (runCommands Handler.dispatch 0 (lineItems text) (newHandler v)).1 n)

theorem back_of_class {v : Nat} (hv : Supported v) {n : Str} {c : Command} (hc : (commandMap v).lookup n = some c) {t : Str → Option Bool}
    (ht : ∀ a ∈ looksAt (attrName c.name), t a = (newHandler v).seenAttr a) {text : Str} (hterm : text = [] ∨ text.getLast? = some '\n')
    (hown : ∀ it ∈ lineItems text, PlainOwn v n it) {i : Inst CState} (hr : runClass c t 0 (lineItems text) c.new.inst = some i) (htx : c.str i = text) {Q : Ns → Prop} (hq : Q (selfOf i)) :
    ReadBack v n text Q := by
  refine ⟨stable_of_class hv hc ht hterm hown hr htx, ?_⟩
  obtain ⟨r, h1, h2⟩ := new_object hv hc
  obtain ⟨-, e2⟩ := run_class hv (fun it hit => plainOwn_own hv hc (hown it hit)) h1 .new (.refl _) h2 ht hr
  have hsh := (runH_session (v := v) .new (lineItems text) 0).2
  have e : (runH 0 (lineItems text) (newHandler v)).1.commands.lookup n = some (some r) := by rw [hsh.commands]; exact h1
  show Q (attrsOf (runH 0 (lineItems text) (newHandler v)).1 n)
  unfold attrsOf objectOf
  rw [e]
  simp only [e2]
  exact hq

/-- A comment and a line of the command: if a new object reads the line and then writes the same text, the text is stable. -/
theorem line_stable {v : Nat} (hv : Supported v) {n : Str} {c : Command} (hc : (commandMap v).lookup n = some c) (hla : looksAt (attrName c.name) = []) {hd : Str} (hh : headLine hd = true)
    (hn : PlainWord n) (hp : n.head? ≠ some '%') {g : List (Str × Word)} (h : ∀ x ∈ g, x.1 ≠ [] ∧ (∀ c ∈ x.1, c = ' ') ∧ x.2.Ok true ∧ NoBreak x.2.render) {text : Str} {Q : Ns → Prop}
    (ht : text = hd ++ (n ++ wordsText g ++ c!"\n"))
    (hrun : ∀ i : Inst CState, i.attrs = c.init → ∃ j x, c.parse (fun _ => none) (g.map fun x => x.2.text) i = (j, .ok x) ∧ c.stored (j, .ok x) = j ∧ c.str j = text ∧ Q (selfOf j)) : ReadBack v n text Q := by
  have hl := shlex_line hn fun x hx => ⟨(h x hx).1, (h x hx).2.1, (h x hx).2.2.1⟩
  obtain ⟨-, f1, f2, f3, -⟩ := headLine_facts hh
  have hnb : NoBreak (n ++ wordsText g) := by
    intro ch hch
    rcases List.mem_append.1 hch with hch | hch
    · exact break_space (hn.2.2 ch hch).2
    · obtain ⟨s, hs, hch⟩ := List.mem_flatten.1 hch
      obtain ⟨x, hx, rfl⟩ := List.mem_map.1 hs
      rcases List.mem_append.1 hch with hch | hch
      · rw [(h x hx).2.1 ch hch]; rfl
      · exact (h x hx).2.2.2 ch hch
  have hb : isBlankOrComment (n ++ wordsText g ++ c!"\n") = false := by
    obtain ⟨h1, -, h3⟩ := hn
    cases n with
    | nil => exact absurd rfl h1
    | cons a t =>
      obtain ⟨h4, h5⟩ := h3 a (by simp)
      have h6 : a ≠ '#' := h4.2.2.2 rfl
      simp [isBlankOrComment, lstrip, strIsSpace, h5, h6]
  have hone : lineItems (n ++ wordsText g ++ c!"\n") = [.cmd (n ++ wordsText g ++ c!"\n") (n :: g.map fun x => x.2.text)] := by
    have e : splitLines (n ++ wordsText g ++ c!"\n") = [n ++ wordsText g ++ c!"\n"] := by
      have := splitLines_line (rest := []) hnb
      simpa [splitLines] using this
    unfold lineItems
    rw [e]
    simp only [List.map_cons, List.map_nil, lineItem, hb, hl]
    rfl
  have hhd : lineItems hd = [.skip hd] := by
    unfold lineItems
    rw [f3, List.map_cons, List.map_nil, (headLine_item hh).1]
  have hlast : hd.getLast? = some '\n' := f2
  have hitems : lineItems text = [.skip hd, .cmd (n ++ wordsText g ++ c!"\n") (n :: g.map fun x => x.2.text)] := by
    rw [ht, lineItems_append (.inr hlast), hhd, hone]; rfl
  have hcmd : CmdLine (n ++ wordsText g ++ c!"\n") (n :: g.map fun x => x.2.text) := by
    obtain ⟨h1, -, -⟩ := hn
    refine ⟨hb, hl, ?_⟩
    cases n with
    | nil => exact absurd rfl h1
    | cons a t => exact ⟨a, t, _, rfl, fun e => hp (by rw [e]; rfl)⟩
  obtain ⟨j, x, h1, h2, h3, h4⟩ := hrun (c.new.inst.noted n (n ++ wordsText g ++ c!"\n") 2) rfl
  refine back_of_class hv hc (t := fun _ => none) (fun a ha => by rw [hla] at ha; cases ha) (.inr ?_) ?_ (i := j) ?_ h3 h4
  · rw [ht]; simp
  · rw [hitems]
    intro it hit
    simp only [List.mem_cons, List.not_mem_nil, or_false] at hit
    rcases hit with rfl | rfl
    · exact (headLine_item hh).2
    · exact ⟨hcmd, rfl⟩
  · rw [hitems]
    simp only [runClass]
    rw [h1]
    simp only
    rw [h2]

theorem selfOf_getD {i : Inst CState} {k : Str} (h : k ≠ c!"seen") : (selfOf i).getD k = i.attrs.attrs.getD k := by
  unfold selfOf Ns.getD Ns.get
  rw [List.lookup_cons, show (k == c!"seen") = false by simpa using h]

/-- The same for a command without a data list. -/
theorem plain_stable {v : Nat} (hv : Supported v) {n name : Str} {prio : Option Int} {init : Ns} {parse : List Str → M Unit} {str : Ns → Str}
    (hc : (commandMap v).lookup n = some (plainCmd name prio init parse str)) (hla : looksAt (attrName name) = []) {hd : Str} (hh : headLine hd = true)
    (hn : PlainWord n) (hp : n.head? ≠ some '%') {g : List (Str × Word)} (h : ∀ x ∈ g, x.1 ≠ [] ∧ (∀ c ∈ x.1, c = ' ') ∧ x.2.Ok true ∧ NoBreak x.2.render) {Q : Ns → Prop} {d : Ns} (hd' : Q d)
    (ht : ∀ d, Q d → str d = hd ++ (n ++ wordsText g ++ c!"\n"))
    (hrun : ∀ i : Inst CState, i.attrs.attrs = init → ∃ j, parse (g.map fun x => x.2.text) (fun _ => none) i = (j, .ok ()) ∧ Q (selfOf j)) : ReadBack v n (str d) Q := by
  refine line_stable hv hc hla hh hn hp h (ht d hd') fun i hi => ?_
  obtain ⟨j, h1, h2⟩ := hrun i (by rw [hi]; rfl)
  exact ⟨j, none, by simp only [plainCmd, h1], rfl, (ht _ h2).trans (ht d hd').symm, h2⟩

/-- A word without quotes. -/
def bareWord (w : Str) : Str × Word := (c!" ", w.map Seg.bare)

theorem bareWord_ok {w : Str} (hne : w ≠ []) (h : ∀ c ∈ w, PlainChar c) :
    (bareWord w).1 ≠ [] ∧ (∀ c ∈ (bareWord w).1, c = ' ') ∧ (bareWord w).2.Ok true ∧ NoBreak (bareWord w).2.render := by
  refine ⟨by simp [bareWord], by simp [bareWord], word_bare_ok hne fun c hc => (h c hc).1, ?_⟩
  simp only [bareWord, word_bare_render]
  exact fun c hc => break_space (h c hc).2

theorem wordsText_bare (ws : List Str) : wordsText (ws.map bareWord) = (ws.map fun w => c!" " ++ w).flatten := by
  simp only [wordsText, List.map_map, Function.comp_def, bareWord, word_bare_render]

theorem texts_bare (ws : List Str) : (ws.map bareWord).map (fun x => x.2.text) = ws := by
  rw [List.map_map]
  exact List.map_id'' (fun w => word_bare_text w) ws

/-! ## The language -/

theorem lang_text {d : Ns} {w : Str} (hw : w ≠ []) (h : d.getD c!"lang" = .str w) : FC3_Lang.strOut.render d = c!"# System language\nlang " ++ w ++ c!"\n" := by
  cases w with
  | nil => exact absurd rfl hw
  | cons a t => simp [FC3_Lang.strOut, Out.render, pieceText, Cond.eval, Frag.render, h, Val.truthy, Val.fmt]

theorem join_plain {ws : List Str} (h : ∀ x ∈ ws, PlainElem x) : ∀ c ∈ joinWith c!"," ws, PlainChar c := by
  induction ws with
  | nil => simp [joinWith]
  | cons a t ih =>
    have ha := (h a (by simp)).2
    cases t with
    | nil => simpa [joinWith] using fun c hc => (ha c hc).1
    | cons b t =>
      intro c hc
      simp only [joinWith, List.append_assoc, List.mem_append, List.mem_cons, List.not_mem_nil, or_false] at hc
      rcases hc with hc | hc | hc
      · exact (ha c hc).1
      · rw [hc]; decide
      · exact ih (fun x hx => h x (by simp [hx])) c hc

theorem clean_plain {x : Str} (h : PlainElem x) : CleanElem x :=
  ⟨h.1, fun hc => (h.2 _ hc).2 rfl, fun c hc => (h.2 c (List.mem_of_head? hc)).1.2, fun c hc => (h.2 c (List.mem_of_getLast? hc)).1.2⟩

theorem comma_plain {ws : List Str} (h : ∀ x ∈ ws, PlainElem x) : commaSplit (joinWith c!"," ws) = ws :=
  C05_roundtrip ws fun x hx => clean_plain (h x hx)

/-- The settings of `lang`. -/
def LangIs (d : Ns) (w : Str) (ws : List Str) : Prop :=
  d.getD c!"lang" = .str w ∧ (d.getD c!"addsupport" = .list ws ∨ (d.getD c!"addsupport").truthy = false ∧ ws = [])

def langWords (w : Str) (ws : List Str) : List Str := w :: if ws = [] then [] else [c!"--addsupport=" ++ joinWith c!"," ws]

theorem lang_fc3 {v : Nat} (hv : Supported v) (hc : (commandMap v).lookup c!"lang" = some FC3_Lang.cls) {d : Ns} {w : Str} (hw : PlainWord w) (hd : d.getD c!"lang" = .str w) :
    ReadBack v c!"lang" (FC3_Lang.strOut.render d) fun d => d.getD c!"lang" = .str w := by
  refine plain_stable hv hc (by decide) (hd := c!"# System language\n") (by decide) (by decide) (by decide) (g := [w].map bareWord) ?_ hd (fun d hd => by rw [lang_text hw.1 hd, wordsText_bare]; simp) fun i hi => ?_
  · simpa using bareWord_ok hw.1 hw.2.2
  · rw [texts_bare]
    obtain ⟨ns, hk, hns⟩ := front_word (l := some (i.lineno : Int)) (p := FC3_Lang.op) (a := FC3_Lang.op.actions[0]) (by decide +kernel) hw.2.1 (.inl rfl) (ts := []) (by simp)
    have hg : ns.getD c!"lang" = .list [w] := by unfold Ns.getD; rw [show ns.get c!"lang" = _ from hns.2.1]; rfl
    simp only [FC3_Lang.parse, bind, M.parseKnown, FC3_Lang.info]
    rw [show FC3_Lang.op.parseKnown (some (i.lineno : Int)) [w] = _ from hk]
    simp only [hg, M.assert, Val.len, M.failIf, M.setToSelf, M.lift, Val.index, M.set]
    refine ⟨_, rfl, ?_⟩
    rw [selfOf_getD (by decide)]
    simp [Ns.getD, Ns.get_set_self]

theorem rstrip_word {a w : Str} (hw : w ≠ []) (h : ∀ c ∈ w, isSpace c = false) : rstrip (a ++ w ++ c!"\n") = a ++ w := by
  unfold rstrip
  obtain ⟨b, x, rfl⟩ : ∃ b x, w = b ++ [x] := ⟨w.dropLast, w.getLast hw, (List.dropLast_concat_getLast hw).symm⟩
  have hx := h x (by simp)
  simp [hx, show isSpace '\n' = true by decide]

theorem lang_f19_text {d : Ns} {w : Str} {ws : List Str} (hw : PlainWord w) (h : LangIs d w ws) :
    F19_Lang.strText d = c!"# System language\n" ++ (c!"lang" ++ wordsText ((langWords w ws).map bareWord) ++ c!"\n") := by
  obtain ⟨h1, h2⟩ := h
  have e := lang_text hw.1 h1
  unfold F19_Lang.strText
  simp only [e, wordsText_bare, langWords, Cond.eval, Frag.render]
  by_cases hws : ws = []
  · have : (d.getD c!"addsupport").truthy = false := by
      rcases h2 with h2 | h2
      · rw [h2, hws]; rfl
      · exact h2.1
    simp [this, hws]
  · have h3 : d.getD c!"addsupport" = .list ws := by
      rcases h2 with h2 | h2
      · exact h2
      · exact absurd h2.2 hws
    have := rstrip_word (a := c!"# System language\nlang ") hw.1 fun c hc => (hw.2.2 c hc).2
    rw [this, h3]
    simp [hws, Val.truthy, Val.items]

theorem lang_f19 {v : Nat} (hv : Supported v) (hc : (commandMap v).lookup c!"lang" = some F19_Lang.cls) {d : Ns} {w : Str} {ws : List Str} (hw : PlainWord w) (hws : ∀ x ∈ ws, PlainElem x)
    (hd : LangIs d w ws) : ReadBack v c!"lang" (F19_Lang.strText d) fun d => LangIs d w ws := by
  refine plain_stable hv hc (by decide) (hd := c!"# System language\n") (by decide) (by decide) (by decide) (g := (langWords w ws).map bareWord) ?_ hd (fun d hd => lang_f19_text hw hd) fun i hi => ?_
  · intro x hx
    obtain ⟨y, hy, rfl⟩ := List.mem_map.1 hx
    unfold langWords at hy
    rcases List.mem_cons.1 hy with rfl | hy
    · exact bareWord_ok hw.1 hw.2.2
    · split at hy
      · cases hy
      · rw [List.mem_singleton] at hy
        subst hy
        refine bareWord_ok (by simp) fun c hc => ?_
        rcases List.mem_append.1 hc with hc | hc
        · clear * - hc
          revert c
          decide
        · exact join_plain hws c hc
  · rw [texts_bare]
    have key : ∃ ns, F19_Lang.op.parseKnown (some (i.lineno : Int)) (langWords w ws) = .ok (ns, []) ∧ ns.getD c!"lang" = .list [w] ∧ (setToObj ns F19_Lang.init).get c!"addsupport" = some (.list ws) := by
      by_cases hn : ws = []
      · obtain ⟨ns, hk, hns⟩ := front_word (l := some (i.lineno : Int)) (p := F19_Lang.op) (a := F19_Lang.op.actions[0]) (by decide +kernel) hw.2.1 (.inl rfl) (ts := []) (by simp)
        refine ⟨ns, by simpa [langWords, hn] using hk, by unfold Ns.getD; rw [show ns.get c!"lang" = _ from hns.2.1]; rfl, ?_⟩
        rw [setTo_keep hns (by decide) rfl, hn]
        rfl
      · obtain ⟨ns, hk, hns⟩ := front_word (l := some (i.lineno : Int)) (p := F19_Lang.op) (a := F19_Lang.op.actions[0]) (by decide +kernel) hw.2.1 (.inl rfl)
          (ts := [⟨c!"--addsupport", some (joinWith c!"," ws)⟩]) (by simp only [List.mem_singleton, forall_eq]; exact ⟨_, _, rfl, .inl rfl, rfl⟩)
        refine ⟨ns, by simpa [langWords, hn, Tok.text, valText] using hk, by unfold Ns.getD; rw [show ns.get c!"lang" = _ from hns.2.1]; rfl, ?_⟩
        refine (setTo_get (by simp) hns).2 _ (by decide) _ ?_ (by simp)
        rw [← comma_plain hws]
        conv => lhs; rw [comma_plain hws]
        rfl
    obtain ⟨ns, hk, hg, hs⟩ := key
    simp only [FC3_Lang.parse, bind, M.parseKnown, F19_Lang.info]
    rw [hk]
    simp only [hg, M.assert, Val.len, M.failIf, M.setToSelf, M.lift, Val.index, M.set]
    refine ⟨_, rfl, ?_, .inl ?_⟩
    · rw [selfOf_getD (by decide)]
      simp [Ns.getD, Ns.get_set_self]
    · rw [selfOf_getD (by decide)]
      simp only [Ns.getD, Ns.get_set, hi, hs]
      rfl

end Ks
