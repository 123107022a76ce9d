import Verif.Props.SmallProps
/-!
# C83: `sshkey` and `sshpw` are read again as they are written
-/
namespace Ks

open Cmd

/-! ## A list of lines -/

/-- Words that can be written one after the other. -/
def WordsOk (g : List (Str × Word)) : Prop := ∀ x ∈ g, x.1 ≠ [] ∧ (∀ c ∈ x.1, c = ' ') ∧ x.2.Ok true ∧ NoBreak x.2.render

/-- A line of words. -/
theorem words_item {n : Str} (hn : PlainWord n) (hp : n.head? ≠ some '%') {g : List (Str × Word)} (h : WordsOk g) :
    CmdLine (n ++ wordsText g ++ c!"\n") (n :: g.map fun x => x.2.text) ∧ lineItems (n ++ wordsText g ++ c!"\n") = [.cmd (n ++ wordsText g ++ c!"\n") (n :: g.map fun x => x.2.text)] := by
  have hl := shlex_line hn fun x hx => ⟨(h x hx).1, (h x hx).2.1, (h x hx).2.2.1⟩
  have hnb : NoBreak (n ++ wordsText g) := by
    intro ch hch
    rcases List.mem_append.1 hch with hch | hch
    · exact break_space (hn.2.2 ch hch).2
    · obtain ⟨s, hs, hch⟩ := List.mem_flatten.1 hch
      obtain ⟨x, hx, rfl⟩ := List.mem_map.1 hs
      rcases List.mem_append.1 hch with hch | hch
      · rw [(h x hx).2.1 ch hch]; rfl
      · exact (h x hx).2.2.2 ch hch
  have hb : isBlankOrComment (n ++ wordsText g ++ c!"\n") = false := by
    obtain ⟨h1, -, h3⟩ := hn
    cases n with
    | nil => exact absurd rfl h1
    | cons a t =>
      obtain ⟨h4, h5⟩ := h3 a (by simp)
      have h6 : a ≠ '#' := h4.2.2.2 rfl
      simp [isBlankOrComment, lstrip, strIsSpace, h5, h6]
  refine ⟨⟨hb, hl, ?_⟩, ?_⟩
  · cases n with
    | nil => exact absurd rfl hn.1
    | cons a t => exact ⟨a, t, _, rfl, fun e => hp (by rw [e]; rfl)⟩
  · have e : splitLines (n ++ wordsText g ++ c!"\n") = [n ++ wordsText g ++ c!"\n"] := by
      have := splitLines_line (rest := []) hnb
      simpa [splitLines] using this
    unfold lineItems
    rw [e]
    simp only [List.map_cons, List.map_nil, lineItem, hb, hl]
    rfl

/-- The object is written as one line of words, and `parse` makes of them an object with the same text that is related to it by `R`. -/
def ReadAlike (n : Str) (str : Ns → Str) (parse : List Str → M Ns) (R : Ns → Ns → Prop) (d : Ns) : Prop :=
  ∃ g, WordsOk g ∧ str d = n ++ wordsText g ++ c!"\n" ∧
    ∀ i : Inst CState, ∃ j d', parse (g.map fun x => x.2.text) (fun _ => none) i = (j, .ok d') ∧ j.attrs.data = i.attrs.data ∧ str d' = str d ∧ R d d'

theorem lines_run {n : Str} (hn : PlainWord n) (hp : n.head? ≠ some '%') {name : Str} {prio : Option Int} {init : Ns} {dc : DataCls} {parse : List Str → M Ns} {R : Ns → Ns → Prop} {ds : List Ns}
    (h : ∀ d ∈ ds, ReadAlike n dc.str parse R d) (k : Nat) (i : Inst CState) :
    ((ds.map dc.str).flatten = [] ∨ (ds.map dc.str).flatten.getLast? = some '\n') ∧ (∀ it ∈ lineItems (ds.map dc.str).flatten, ∃ l ws, it = .cmd l (n :: ws) ∧ CmdLine l (n :: ws)) ∧
    ∃ j ds', runClass (listCmd name prio init dc parse listStr) (fun _ => none) k (lineItems (ds.map dc.str).flatten) i = some j ∧ j.attrs.data = i.attrs.data ++ ds' ∧
      List.Forall₂ (fun d d' => dc.str d' = dc.str d ∧ R d d') ds ds' := by
  induction ds generalizing k i with
  | nil => exact ⟨.inl rfl, by simp [lineItems, splitLines], i, [], rfl, by simp, .nil⟩
  | cons d ds ih =>
    obtain ⟨g, hg, ht, hr⟩ := h d (by simp)
    obtain ⟨w1, w2⟩ := words_item hn hp hg
    have hlast : (dc.str d).getLast? = some '\n' := by rw [ht]; simp
    have hit : lineItems ((d :: ds).map dc.str).flatten = .cmd (dc.str d) (n :: g.map fun x => x.2.text) :: lineItems (ds.map dc.str).flatten := by
      rw [List.map_cons, List.flatten_cons, lineItems_append (.inr hlast), ht, w2]; rfl
    obtain ⟨j, d', p1, p2, p3, p4⟩ := hr (i.noted n (dc.str d) (k + 1))
    obtain ⟨e1, e2, j', ds', e3, e4, e5⟩ := ih (fun d hd => h d (by simp [hd])) (k + 1) { j with attrs := { j.attrs with data := j.attrs.data ++ [d'] } }
    refine ⟨.inr ?_, ?_, j', d' :: ds', ?_, ?_, .cons ⟨p3, p4⟩ e5⟩
    · rw [List.map_cons, List.flatten_cons, List.getLast?_append]
      rcases e1 with e1 | e1 <;> rw [e1]
      · exact hlast
      · rfl
    · rw [hit]
      intro it hm
      rcases List.mem_cons.1 hm with rfl | hm
      · exact ⟨_, _, rfl, by rw [ht]; exact w1⟩
      · exact e2 it hm
    · rw [hit, runClass]
      have hpar : (listCmd name prio init dc parse listStr).parse (fun _ => none) (g.map fun x => x.2.text) (i.noted n (dc.str d) (k + 1)) = (j, .ok (some d')) := by
        simp only [listCmd, p1]
      rw [hpar]
      exact e3
    · rw [e4]
      show j.attrs.data ++ [d'] ++ ds' = _
      rw [p2, List.append_assoc]
      rfl

/-- The text of a list of which each object is read alike. -/
theorem list_back {v : Nat} (hv : Supported v) {n : Str} (hn : PlainWord n) (hp : n.head? ≠ some '%') {name : Str} {prio : Option Int} {init : Ns} {dc : DataCls} {parse : List Str → M Ns}
    (hc : (commandMap v).lookup n = some (listCmd name prio init dc parse listStr)) (hla : looksAt (attrName name) = []) {R : Ns → Ns → Prop} {ds : List Ns}
    (h : ∀ d ∈ ds, ReadAlike n dc.str parse R d) :
    StableText v n (ds.map dc.str).flatten ∧ List.Forall₂ R ds (dataOf (runCommands Handler.dispatch 0 (lineItems (ds.map dc.str).flatten) (newHandler v)).1 n) := by
  obtain ⟨h1, h2, j, ds', h3, h4, h5⟩ := lines_run (name := name) (prio := prio) (init := init) hn hp h 0 (listCmd name prio init dc parse listStr).new.inst
  have h4' : j.attrs.data = ds' := h4
  have ht : ∀ a ∈ looksAt (attrName (listCmd name prio init dc parse listStr).name), (fun _ => none : Str → Option Bool) a = (newHandler v).seenAttr a := by
    intro a ha
    rw [show (listCmd name prio init dc parse listStr).name = name from rfl, hla] at ha
    cases ha
  have hown : ∀ it ∈ lineItems (ds.map dc.str).flatten, PlainOwn v n it := by
    intro it hit
    obtain ⟨l, ws, rfl, hcl⟩ := h2 it hit
    exact ⟨hcl, rfl⟩
  have htx : (listCmd name prio init dc parse listStr).str j = (ds.map dc.str).flatten := by
    show (j.attrs.data.map dc.str).flatten = _
    rw [h4']
    congr 1
    clear h3 h4 h4' hown h2 h1 h
    induction h5 with
    | nil => rfl
    | cons a _ ih => rw [List.map_cons, List.map_cons, a.1, ih]
  refine ⟨stable_of_class hv hc ht h1 hown h3 htx, ?_⟩
  obtain ⟨r, g1, g2⟩ := new_object hv hc
  obtain ⟨-, e2⟩ := run_class hv (fun it hit => plainOwn_own hv hc (hown it hit)) g1 .new (.refl _) g2 ht h3
  have hsh := (runH_session (v := v) .new (lineItems (ds.map dc.str).flatten) 0).2
  have e : (runH 0 (lineItems (ds.map dc.str).flatten) (newHandler v)).1.Serves n r := by unfold Handler.Serves; rw [hsh.commands]; exact g1
  show List.Forall₂ R ds (dataOf (runH 0 (lineItems (ds.map dc.str).flatten) (newHandler v)).1 n)
  rw [data_serves e e2]
  show List.Forall₂ R ds j.attrs.data
  rw [h4']
  exact h5.imp fun _ _ a => a.2

/-! ## `sshkey` -/

/-- A text that is written in double quotation marks as it is. -/
def Quotable (w : Str) : Prop := ∀ c ∈ w, c ≠ '"' ∧ c ≠ '\\' ∧ isLineBreak c = false

instance (w : Str) : Decidable (Quotable w) := by unfold Quotable; infer_instance

/-- A value after an equals sign, without quotes. -/
def PlainValue (w : Str) : Prop := w ≠ [] ∧ ∀ c ∈ w, PlainChar c

instance (w : Str) : Decidable (PlainValue w) := by unfold PlainValue; infer_instance

/-- The user and the key. -/
def KeyIs (d : Ns) (u w : Str) : Prop := d.getD c!"username" = .str u ∧ d.getD c!"key" = .str w

def quotedWord (w : Str) : Str × Word := (c!" ", [.dbl (w.map .plain)])

theorem quotedWord_ok {w : Str} (h : Quotable w) : (quotedWord w).1 ≠ [] ∧ (∀ c ∈ (quotedWord w).1, c = ' ') ∧ (quotedWord w).2.Ok true ∧ NoBreak (quotedWord w).2.render := by
  refine ⟨by simp [quotedWord], by simp [quotedWord], ⟨by simp [quotedWord], ?_⟩, ?_⟩
  · intro s hs
    simp only [quotedWord, List.mem_singleton] at hs
    subst hs
    intro i hi
    obtain ⟨c, hc, rfl⟩ := List.mem_map.1 hi
    exact ⟨(h c hc).1, (h c hc).2.1⟩
  · have e : (quotedWord w).2.render = c!"\"" ++ w ++ c!"\"" := by simpa [quotedWord, Word.render, Seg.render] using dbl_render w
    rw [e]
    intro c hc
    simp only [List.mem_append, List.mem_singleton] at hc
    rcases hc with (rfl | hc) | rfl
    · rfl
    · exact (h c hc).2.2
    · rfl

def userTok (u : Str) : Tok := ⟨c!"--username", some u⟩

theorem userTok_ok {u : Str} (h : PlainValue u) : (bareWord (userTok u).text).1 ≠ [] ∧ (∀ c ∈ (bareWord (userTok u).text).1, c = ' ') ∧ (bareWord (userTok u).text).2.Ok true ∧ NoBreak (bareWord (userTok u).text).2.render := by
  refine bareWord_ok (by simp [userTok, Tok.text]) fun c hc => ?_
  simp only [userTok, Tok.text, valText] at hc
  have h0 : ∀ c ∈ c!"--username=", PlainChar c := by decide
  rcases List.mem_append.1 hc with hc | hc
  · exact h0 c (List.mem_append_left _ hc)
  · rcases List.mem_cons.1 hc with rfl | hc
    · decide
    · exact h.2 c hc

theorem M.assert_yes {b : Bool} {h : Str → Option Bool} {i : Inst CState} (hb : b = true) : M.assert b h i = (i, .ok ()) := by rw [hb]; rfl

theorem M.lift_ok {α : Type} {x : Except Exc α} {a : α} {h : Str → Option Bool} {i : Inst CState} (hx : x = .ok a) : M.lift x h i = (i, .ok a) := by rw [hx]; rfl

theorem M.lineno_ok (h : Str → Option Bool) (i : Inst CState) : M.lineno h i = (i, .ok i.lineno) := rfl

theorem M.dataList_ok (h : Str → Option Bool) (i : Inst CState) : M.dataList h i = (i, .ok i.attrs.data) := rfl

theorem M.when_warn (b : Bool) (w : Warn) (h : Str → Option Bool) (i : Inst CState) :
    M.when b (M.warn w) h i = ({ i with attrs := { i.attrs with warned := i.attrs.warned ++ if b then [w] else [] } }, .ok ()) := by
  cases b
  · simp only [M.when, Bool.false_eq_true, if_false, List.append_nil]; rfl
  · rfl

theorem words_two (u w : Str) : wordsText [bareWord u, quotedWord w] = c!" " ++ u ++ c!" \"" ++ w ++ c!"\"" := by
  have e : (quotedWord w).2.render = c!"\"" ++ w ++ c!"\"" := by simpa [quotedWord, Word.render, Seg.render] using dbl_render w
  have e' : (bareWord u).2.render = u := word_bare_render u
  simp only [wordsText, List.map_cons, List.map_nil, e, e', List.flatten_cons, List.flatten_nil, List.append_nil]
  simp [bareWord, quotedWord]

theorem sshkey_alike {d : Ns} {u w : Str} (hu : PlainValue u) (hw : Quotable w) (hw' : startsWith w c!"-" = false) (hd : KeyIs d u w) :
    ReadAlike c!"sshkey" F22_SshKeyData.cls.str (F22_SshKey.parse (F22_SshKey.info F22_SshKeyData.cls)) (fun _ d' => KeyIs d' u w) d := by
  have htext : ∀ d, KeyIs d u w → F22_SshKeyData.cls.str d = c!"sshkey" ++ wordsText [bareWord (userTok u).text, quotedWord w] ++ c!"\n" := by
    intro d hd
    rw [words_two]
    simp [F22_SshKeyData.cls, F22_SshKeyData.strOut, F22_SshKeyData.args, Out.render, pieceText, Cond.eval, Frag.render, hd.1, hd.2, Val.fmt, userTok, Tok.text, valText]
  refine ⟨[bareWord (userTok u).text, quotedWord w], ?_, htext d hd, fun i => ?_⟩
  · intro x hx
    simp only [List.mem_cons, List.not_mem_nil, or_false] at hx
    rcases hx with rfl | rfl
    · exact userTok_ok hu
    · exact quotedWord_ok hw
  · have ews : [bareWord (userTok u).text, quotedWord w].map (fun x => x.2.text) = [userTok u].map Tok.text ++ [w] := by
      have e : (quotedWord w).2.text = w := by simpa [quotedWord, Word.text, Seg.text] using dbl_text w
      simp only [List.map_cons, List.map_nil, e, bareWord, word_bare_text]
      rfl
    rw [ews]
    obtain ⟨ns, hk, hns⟩ := known_back (l := some (i.lineno : Int)) (p := F22_SshKey.op) (a := F22_SshKey.op.actions[1]) (by decide +kernel) rfl rfl (by decide +kernel) (ws := [w]) (by simpa using hw') rfl
      (ts := [userTok u]) (by simp only [List.mem_singleton, forall_eq]; exact ⟨F22_SshKey.op.actions[0], show (c!"--username", F22_SshKey.op.actions[0]) ∈ F22_SshKey.op.strings by decide +kernel, .inl rfl⟩) (by simp only [List.mem_singleton, forall_eq]; exact ⟨_, _, rfl, rfl⟩)
      (getValues_words hw' rfl rfl (.inl rfl)) (by
        have : ∀ b ∈ F22_SshKey.op.actions, b.required = true → b.id = F22_SshKey.op.actions[1].id ∨ b.id ∈ [F22_SshKey.op.actions[0].id] := by decide +kernel
        exact this)
    obtain ⟨-, g2⟩ := setTo_get (obj := F22_SshKeyData.init) (by simp) hns
    have g1 : (setToObj ns F22_SshKeyData.init).get c!"username" = some (.str u) := g2 _ (by decide) _ rfl (by simp)
    have hg : ns.getD c!"sshkey" = .list [w] := by unfold Ns.getD; rw [show ns.get c!"sshkey" = _ from hns.2.1]; rfl
    generalize hx : setToObj ns F22_SshKeyData.init = x at g1
    have hq : KeyIs ((x.set c!"key" (.str w)).set c!"lineno" (.int i.lineno)) u w := by
      refine ⟨?_, ?_⟩
      · unfold Ns.getD
        rw [Ns.get_set, if_neg (by decide), Ns.get_set, if_neg (by decide), g1]; rfl
      · unfold Ns.getD
        rw [Ns.get_set, if_neg (by decide), Ns.get_set, if_pos rfl]; rfl
    have hpar : ∃ j, F22_SshKey.parse (F22_SshKey.info F22_SshKeyData.cls) ([userTok u].map Tok.text ++ [w]) (fun _ => none) i = (j, .ok ((x.set c!"key" (.str w)).set c!"lineno" (.int i.lineno))) ∧
        j.attrs.data = i.attrs.data := by
      subst hx
      refine ⟨_, (M.step (M.parseKnown_ok hk)).trans ((M.step (M.assert_yes (by rw [hg]; rfl))).trans ((M.step (M.failIf_no rfl)).trans ((M.step (M.lift_ok (show (ns.getD c!"sshkey").index 0 = .ok (Val.str w) by rw [hg]; rfl))).trans
        ((M.step (M.lineno_ok _ _)).trans ((M.step (M.dataList_ok _ _)).trans ((M.step (M.when_warn _ _ _ _)).trans rfl)))))), rfl⟩
    obtain ⟨j, h1, h2⟩ := hpar
    exact ⟨j, _, h1, h2, by rw [htext _ hq, htext d hd], hq⟩

/-! ## `sshpw` -/

theorem join_blank {ws : List Str} (h : ws ≠ []) : c!" " ++ joinWith c!" " ws = (ws.map fun w => c!" " ++ w).flatten := by
  induction ws with
  | nil => exact absurd rfl h
  | cons a t ih =>
    cases t with
    | nil => simp [joinWith]
    | cons b t => rw [joinWith, List.map_cons, List.flatten_cons, ← ih (by simp)]; simp

theorem star_count {ws : List Str} : matchPartial [.star] (ws.map fun w => (w, Cls.A)) = [ws.length] := by
  have e : (ws.map fun w => (w, Cls.A)).takeWhile (fun x => x.2.isA || x.2.isDash) = ws.map fun w => (w, Cls.A) := by
    induction ws with
    | nil => rfl
    | cons w t ih => rw [List.map_cons, List.takeWhile_cons, ih]; rfl
  have d : ∀ k, ∃ t, downTo k = k :: t := fun k => by cases k <;> exact ⟨_, rfl⟩
  have m : matchAll [.star] (ws.map fun w => (w, Cls.A)) = some [ws.length] := by
    rw [matchAll]
    simp only [candidates, e, List.length_map]
    obtain ⟨t, ht⟩ := d ws.length
    rw [ht]
    rfl
  simp only [matchPartial, List.length_singleton, matchPartial.go, List.take, m]

theorem star_values {l : Option Int} {a : Action} {ws : List Str} (hne : ws ≠ []) (hw : ∀ w ∈ ws, startsWith w c!"-" = false) (ht : a.ty = .str) (hc : a.choices = none) (hn : a.nargs = .star) :
    getValues l a ws = .ok (.list ws) := by
  have e : (if a.opts = [] then ws.erase c!"--" else ws) = ws := by
    rw [List.erase_of_not_mem fun hm => absurd (hw _ hm) (by decide)]
    split <;> rfl
  have g : ∀ xs, getValueList l a xs = .ok xs := by
    intro xs
    induction xs with
    | nil => rfl
    | cons x t ih =>
      simp only [getValueList, getValue, Action.type, ht, Ty.run, checkValue, hc, ih, bind, Except.bind]
      rfl
  unfold getValues
  rw [e, hn]
  cases ws with
  | nil => exact absurd rfl hne
  | cons a t => cases t <;> simp only [g, Except.map]

/-- The options before the password. -/
def pwOpts (sk lk c : Bool) : List Tok :=
  if sk then [⟨c!"--sshkey", none⟩] else (if lk then [⟨c!"--lock", none⟩] else []) ++ [⟨if c then c!"--iscrypted" else c!"--plaintext", none⟩]

def pwToks (u : Str) (sk lk c : Bool) : List Tok := userTok u :: pwOpts sk lk c

/-- The user, the password and the flags; those for a password count only without a key. -/
def PwIs (d : Ns) (u : Str) (ws : List Str) (sk lk c : Bool) : Prop :=
  d.getD c!"username" = .str u ∧ d.getD c!"password" = .str (joinWith c!" " ws) ∧ (d.getD c!"sshkey").truthy = sk ∧ (sk = false → (d.getD c!"lock").truthy = lk ∧ (d.getD c!"isCrypted").truthy = c)

theorem pw_words {u : Str} (hu : PlainValue u) {ws : List Str} (hw : ∀ w ∈ ws, PlainWord w) (sk lk c : Bool) : WordsOk (((pwToks u sk lk c).map Tok.text ++ ws).map bareWord) := by
  intro x hx
  obtain ⟨y, hy, rfl⟩ := List.mem_map.1 hx
  rcases List.mem_append.1 hy with hy | hy
  · obtain ⟨t, ht, rfl⟩ := List.mem_map.1 hy
    rcases List.mem_cons.1 ht with rfl | ht
    · exact userTok_ok hu
    · have : ∀ sk lk c, ∀ t ∈ pwOpts sk lk c, t.text ≠ [] ∧ ∀ c ∈ t.text, PlainChar c := by decide
      exact bareWord_ok (this sk lk c t ht).1 (this sk lk c t ht).2
  · exact bareWord_ok (hw y hy).1 (hw y hy).2.2

theorem sshpw24_text {d : Ns} {u : Str} {ws : List Str} (hne : ws ≠ []) {sk lk c : Bool} (h : PwIs d u ws sk lk c) :
    F24_SshPwData.cls.str d = c!"sshpw" ++ wordsText (((pwToks u sk lk c).map Tok.text ++ ws).map bareWord) ++ c!"\n" := by
  obtain ⟨h1, h2, h3, h4⟩ := h
  rw [wordsText_bare, List.map_append, List.flatten_append, ← join_blank hne]
  cases sk
  · obtain ⟨h5, h6⟩ := h4 rfl
    cases lk <;> cases c <;>
      simp [F24_SshPwData.cls, F13_SshPwData.strOut, F24_SshPwData.args, Out.render, pieceText, Cond.eval, Frag.render, h1, h2, h3, h5, h6, Val.fmt, pwToks, pwOpts, userTok, Tok.text, valText]
  · simp [F24_SshPwData.cls, F13_SshPwData.strOut, F24_SshPwData.args, Out.render, pieceText, Cond.eval, Frag.render, h1, h2, h3, Val.fmt, pwToks, pwOpts, userTok, Tok.text, valText]

theorem sshpw13_text {d : Ns} {u : Str} {ws : List Str} (hne : ws ≠ []) {lk c : Bool} (h1 : d.getD c!"username" = .str u) (h2 : d.getD c!"password" = .str (joinWith c!" " ws))
    (h5 : (d.getD c!"lock").truthy = lk) (h6 : (d.getD c!"isCrypted").truthy = c) :
    F13_SshPwData.cls.str d = c!"sshpw" ++ wordsText (((pwToks u false lk c).map Tok.text ++ ws).map bareWord) ++ c!"\n" := by
  rw [wordsText_bare, List.map_append, List.flatten_append, ← join_blank hne]
  cases lk <;> cases c <;>
    simp [F13_SshPwData.cls, F13_SshPwData.strOut, F13_SshPwData.args, Out.render, pieceText, Cond.eval, Frag.render, h1, h2, h5, h6, Val.fmt, pwToks, pwOpts, userTok, Tok.text, valText]

theorem sshpw24_parse {u : Str} {ws : List Str} (hne : ws ≠ []) (hw : ∀ w ∈ ws, startsWith w c!"-" = false) {sk lk c : Bool} (i : Inst CState) :
    ∃ j d', F13_SshPw.parse (F24_SshPw.info F24_SshPwData.cls) ((pwToks u sk lk c).map Tok.text ++ ws) (fun _ => none) i = (j, .ok d') ∧ j.attrs.data = i.attrs.data ∧ PwIs d' u ws sk lk c := by
  have hok : ∀ t ∈ pwToks u sk lk c, TokOk F24_SshPw.op (some (i.lineno : Int)) t := by
    intro t ht
    rcases List.mem_cons.1 ht with rfl | ht
    · exact ⟨_, _, rfl, .inl rfl, rfl⟩
    · unfold pwOpts at ht
      split at ht
      · rw [List.mem_singleton] at ht; subst ht; exact ⟨_, _, rfl, rfl, rfl⟩
      · rcases List.mem_append.1 ht with ht | ht
        · split at ht
          · rw [List.mem_singleton] at ht; subst ht; exact ⟨_, _, rfl, rfl, rfl⟩
          · cases ht
        · rw [List.mem_singleton] at ht; subst ht
          cases c <;> exact ⟨_, _, rfl, rfl, rfl⟩
  obtain ⟨ns, hk, hns⟩ := known_back (l := some (i.lineno : Int)) (p := F24_SshPw.op) (a := F24_SshPw.op.actions[4]) (by decide +kernel) rfl rfl (by decide +kernel) (ws := ws) hw star_count
    (ts := pwToks u sk lk c) (fun t ht => (hok t ht).ok) (fun t ht => by obtain ⟨a, v, h1, -, h2⟩ := hok t ht; exact ⟨a, v, h1, h2⟩) (star_values hne hw rfl rfl rfl) (by
      have hq : ∀ b ∈ F24_SshPw.op.actions, b.required = true → b.id = F24_SshPw.op.actions[4].id ∨ b.id = F24_SshPw.op.actions[0].id := by decide +kernel
      intro b hb hr
      rcases hq b hb hr with e | e
      · exact .inl e
      · rw [e]
        exact .inr List.mem_cons_self)
  obtain ⟨g1, g2⟩ := setTo_get (obj := F24_SshPwData.init) (by simp) hns
  have hg : ns.getD c!"password" = .list ws := by unfold Ns.getD; rw [show ns.get c!"password" = _ from hns.2.1]; rfl
  have htr : (Val.list ws).truthy = true := by
    cases ws with
    | nil => exact absurd rfl hne
    | cons _ _ => rfl
  have u1 : (setToObj ns F24_SshPwData.init).get c!"username" = some (.str u) := by cases sk <;> cases lk <;> cases c <;> exact g2 _ (by decide) _ rfl (by simp)
  have u2 : sk = false → (setToObj ns F24_SshPwData.init).get c!"lock" = some (.bool lk) := by rintro rfl; cases lk <;> cases c <;> exact g2 _ (by decide) _ rfl (by simp)
  have u3 : sk = false → (setToObj ns F24_SshPwData.init).get c!"isCrypted" = some (.bool c) := by rintro rfl; cases lk <;> cases c <;> exact g2 _ (by decide) _ rfl (by simp)
  have u4 : (setToObj ns F24_SshPwData.init).get c!"sshkey" = some (.bool sk) := by cases sk <;> cases lk <;> cases c <;> exact g2 _ (by decide) _ rfl (by simp)
  refine ⟨_, _, (M.step (M.parseKnown_ok hk)).trans ((M.step (M.failIf_no (by simp only [hg, htr]; rfl))).trans ((M.step (M.failIf_no rfl)).trans
    ((M.step (M.lineno_ok _ _)).trans ((M.step (M.dataList_ok _ _)).trans ((M.step (M.when_warn _ _ _ _)).trans rfl))))), rfl, ?_⟩
  have hset : ∀ (k : Str) (x y z : Val) (a : Ns), k ≠ c!"password" → k ≠ c!"lineno" → a.get k = some z → ((a.set c!"password" x).set c!"lineno" y).getD k = z := by
    intro k x y z a h1 h2 h3
    unfold Ns.getD
    rw [Ns.get_set, if_neg fun e => h2 e.symm, Ns.get_set, if_neg fun e => h1 e.symm, h3]; rfl
  refine ⟨hset _ _ _ _ _ (by decide) (by decide) u1, ?_, ?_, fun hs => ⟨?_, ?_⟩⟩
  · unfold Ns.getD
    rw [Ns.get_set, if_neg (by decide), Ns.get_set, if_pos rfl]
    show Val.str (joinWith c!" " (ns.getD c!"password").items) = _
    rw [hg]; rfl
  · exact (congrArg Val.truthy (hset _ _ _ _ _ (by decide) (by decide) u4)).trans rfl
  · exact (congrArg Val.truthy (hset _ _ _ _ _ (by decide) (by decide) (u2 hs))).trans rfl
  · exact (congrArg Val.truthy (hset _ _ _ _ _ (by decide) (by decide) (u3 hs))).trans rfl

theorem sshpw13_parse {u : Str} {ws : List Str} (hne : ws ≠ []) (hw : ∀ w ∈ ws, startsWith w c!"-" = false) {sk lk c : Bool} (hsk : sk = false) (i : Inst CState) :
    ∃ j d', F13_SshPw.parse (F13_SshPw.info F13_SshPwData.cls) ((pwToks u sk lk c).map Tok.text ++ ws) (fun _ => none) i = (j, .ok d') ∧ j.attrs.data = i.attrs.data ∧ PwIs d' u ws sk lk c := by
  have hok : ∀ t ∈ pwToks u sk lk c, TokOk F13_SshPw.op (some (i.lineno : Int)) t := by
    intro t ht
    rcases List.mem_cons.1 ht with rfl | ht
    · exact ⟨_, _, rfl, .inl rfl, rfl⟩
    · unfold pwOpts at ht
      split at ht
      · rename_i e; rw [hsk] at e; cases e
      · rcases List.mem_append.1 ht with ht | ht
        · split at ht
          · rw [List.mem_singleton] at ht; subst ht; exact ⟨_, _, rfl, rfl, rfl⟩
          · cases ht
        · rw [List.mem_singleton] at ht; subst ht
          cases c <;> exact ⟨_, _, rfl, rfl, rfl⟩
  obtain ⟨ns, hk, hns⟩ := known_back (l := some (i.lineno : Int)) (p := F13_SshPw.op) (a := F13_SshPw.op.actions[4]) (by decide +kernel) rfl rfl (by decide +kernel) (ws := ws) hw star_count
    (ts := pwToks u sk lk c) (fun t ht => (hok t ht).ok) (fun t ht => by obtain ⟨a, v, h1, -, h2⟩ := hok t ht; exact ⟨a, v, h1, h2⟩) (star_values hne hw rfl rfl rfl) (by
      have hq : ∀ b ∈ F13_SshPw.op.actions, b.required = true → b.id = F13_SshPw.op.actions[4].id ∨ b.id = F13_SshPw.op.actions[0].id := by decide +kernel
      intro b hb hr
      rcases hq b hb hr with e | e
      · exact .inl e
      · rw [e]
        exact .inr List.mem_cons_self)
  obtain ⟨g1, g2⟩ := setTo_get (obj := F13_SshPwData.init) (by simp) hns
  have hg : ns.getD c!"password" = .list ws := by unfold Ns.getD; rw [show ns.get c!"password" = _ from hns.2.1]; rfl
  have htr : (Val.list ws).truthy = true := by
    cases ws with
    | nil => exact absurd rfl hne
    | cons _ _ => rfl
  have u1 : (setToObj ns F13_SshPwData.init).get c!"username" = some (.str u) := by cases sk <;> cases lk <;> cases c <;> exact g2 _ (by decide) _ rfl (by simp)
  have u2 : sk = false → (setToObj ns F13_SshPwData.init).get c!"lock" = some (.bool lk) := by rintro rfl; cases lk <;> cases c <;> exact g2 _ (by decide) _ rfl (by simp)
  have u3 : sk = false → (setToObj ns F13_SshPwData.init).get c!"isCrypted" = some (.bool c) := by rintro rfl; cases lk <;> cases c <;> exact g2 _ (by decide) _ rfl (by simp)
  have u4 : (setToObj ns F13_SshPwData.init).get c!"sshkey" = none := by
    rw [C16_set_to_obj _ _ hns.1, hns.2.2 _ (by decide)]
    subst hsk
    cases lk <;> cases c <;> rfl
  refine ⟨_, _, (M.step (M.parseKnown_ok hk)).trans ((M.step (M.failIf_no (by simp only [hg, htr]; rfl))).trans ((M.step (M.failIf_no rfl)).trans
    ((M.step (M.lineno_ok _ _)).trans ((M.step (M.dataList_ok _ _)).trans ((M.step (M.when_warn _ _ _ _)).trans rfl))))), rfl, ?_⟩
  have hset : ∀ (k : Str) (x y z : Val) (a : Ns), k ≠ c!"password" → k ≠ c!"lineno" → a.get k = some z → ((a.set c!"password" x).set c!"lineno" y).getD k = z := by
    intro k x y z a h1 h2 h3
    unfold Ns.getD
    rw [Ns.get_set, if_neg fun e => h2 e.symm, Ns.get_set, if_neg fun e => h1 e.symm, h3]; rfl
  refine ⟨hset _ _ _ _ _ (by decide) (by decide) u1, ?_, ?_, fun hs => ⟨?_, ?_⟩⟩
  · unfold Ns.getD
    rw [Ns.get_set, if_neg (by decide), Ns.get_set, if_pos rfl]
    show Val.str (joinWith c!" " (ns.getD c!"password").items) = _
    rw [hg]; rfl
  · unfold Ns.getD
    rw [Ns.get_set, if_neg (by decide), Ns.get_set, if_neg (by decide), hsk]
    show (((setToObj ns F13_SshPwData.init).get c!"sshkey").getD .none).truthy = false
    rw [u4]; rfl
  · exact (congrArg Val.truthy (hset _ _ _ _ _ (by decide) (by decide) (u2 hs))).trans rfl
  · exact (congrArg Val.truthy (hset _ _ _ _ _ (by decide) (by decide) (u3 hs))).trans rfl

/-! ## The objects of a session -/

/-- The object can be written so that it is read again. -/
def SshPlain (n : Str) (d : Ns) : Prop :=
  if n = c!"sshkey" then ∃ u w, PlainValue u ∧ Quotable w ∧ startsWith w c!"-" = false ∧ KeyIs d u w
  else ∃ u ws, PlainValue u ∧ ws ≠ [] ∧ (∀ w ∈ ws, PlainWord w) ∧ d.getD c!"username" = .str u ∧ d.getD c!"password" = .str (joinWith c!" " ws)

/-- What is restored: the flags for a password only without a key. -/
def SameSsh (v : Nat) (n : Str) (d d' : Ns) : Prop :=
  d'.getD c!"username" = d.getD c!"username" ∧
  if n = c!"sshkey" then d'.getD c!"key" = d.getD c!"key"
  else d'.getD c!"password" = d.getD c!"password" ∧ (Version.F24 ≤ v → (d'.getD c!"sshkey").truthy = (d.getD c!"sshkey").truthy) ∧
    (v < Version.F24 ∨ (d.getD c!"sshkey").truthy = false → (d'.getD c!"lock").truthy = (d.getD c!"lock").truthy ∧ (d'.getD c!"isCrypted").truthy = (d.getD c!"isCrypted").truthy)

theorem sshkey_class : ∀ y ∈ commandMaps, y.2.lookup c!"sshkey" = none ∨ y.2.lookup c!"sshkey" = some (F22_SshKey.cls F22_SshKeyData.cls) := by
  unfold commandMaps
  repeat' (first | exact List.forall_mem_nil _ | refine List.forall_mem_cons.2 ⟨?_, ?_⟩)
  all_goals first | exact .inl rfl | exact .inr rfl

theorem sshpw_class : ∀ y ∈ commandMaps, y.2.lookup c!"sshpw" = none ∨ (y.1 < Version.F24 ∧ y.2.lookup c!"sshpw" = some (F13_SshPw.cls F13_SshPwData.cls)) ∨
    (Version.F24 ≤ y.1 ∧ y.2.lookup c!"sshpw" = some (F24_SshPw.cls F24_SshPwData.cls)) := by
  unfold commandMaps
  repeat' (first | exact List.forall_mem_nil _ | refine List.forall_mem_cons.2 ⟨?_, ?_⟩)
  all_goals first | exact .inl rfl | exact .inr (.inl ⟨by decide, rfl⟩) | exact .inr (.inr ⟨by decide, rfl⟩)

theorem object_data {h : Handler CState Ns} {n : Str} {o : Obj CState Ns} (ho : objectOf h n = some o) : dataOf h n = o.inst.attrs.data := by
  unfold objectOf at ho
  unfold dataOf
  split at ho
  · rename_i r hr
    simp only [hr, ho, Option.map_some, Option.getD_some]
  · cases ho

/-- C83: in every session, if each object of `sshkey` or `sshpw` is plain, the text of the command is stable, and a new handler that reads it has the same objects in the same order. -/
theorem C83_restores {v : Nat} (hv : Supported v) {h : Handler CState Ns} (s : Session v h) {n : Str} (hn : n ∈ [c!"sshkey", c!"sshpw"]) (ho : objectOf h n ≠ none) (hall : ∀ d ∈ dataOf h n, SshPlain n d) :
    StableText v n (textOf h n) ∧ List.Forall₂ (SameSsh v n) (dataOf h n) (dataOf (runCommands Handler.dispatch 0 (lineItems (textOf h n)) (newHandler v)).1 n) := by
  obtain ⟨o, ho⟩ := Option.ne_none_iff_exists'.1 ho
  have hc := object_class hv s ho
  rw [object_data ho] at hall ⊢
  have htx : textOf h n = o.cls.str o.inst := by unfold textOf; rw [ho]
  rw [htx]
  obtain ⟨c, i⟩ := o
  simp only at hc hall ⊢
  simp only [List.mem_cons, List.not_mem_nil, or_false] at hn
  rcases hn with rfl | rfl
  · rcases sshkey_class _ (supported_mem hv) with e | e
    · cases e.symm.trans hc
    · obtain rfl := Option.some.inj (hc.symm.trans e)
      refine list_back hv (by decide) (by decide) hc (by decide) fun d hd => ?_
      have hp := hall d hd
      unfold SshPlain at hp
      rw [if_pos rfl] at hp
      obtain ⟨u, w, h1, h2, h3, h4⟩ := hp
      obtain ⟨g, g1, g2, g3⟩ := sshkey_alike h1 h2 h3 h4
      refine ⟨g, g1, g2, fun i => ?_⟩
      obtain ⟨j, d', e1, e2, e3, e4⟩ := g3 i
      refine ⟨j, d', e1, e2, e3, by rw [e4.1, h4.1], ?_⟩
      rw [if_pos rfl, e4.2, h4.2]
  · rcases sshpw_class _ (supported_mem hv) with e | ⟨hlt, e⟩ | ⟨hge, e⟩
    · cases e.symm.trans hc
    · obtain rfl := Option.some.inj (hc.symm.trans e)
      refine list_back hv (by decide) (by decide) hc (by decide) fun d hd => ?_
      have hp := hall d hd
      unfold SshPlain at hp
      rw [if_neg (by decide)] at hp
      obtain ⟨u, ws, h1, h2, h3, h4, h5⟩ := hp
      refine ⟨_, pw_words h1 h3 false (d.getD c!"lock").truthy (d.getD c!"isCrypted").truthy, sshpw13_text h2 h4 h5 rfl rfl, fun i => ?_⟩
      rw [texts_bare]
      obtain ⟨j, d', e1, e2, e3, e4, -, e6⟩ := sshpw13_parse (u := u) h2 (fun w hw => (h3 w hw).2.1) (sk := false) (lk := (d.getD c!"lock").truthy) (c := (d.getD c!"isCrypted").truthy) rfl i
      refine ⟨j, d', e1, e2, ?_, by rw [e3, h4], ?_⟩
      · rw [sshpw13_text h2 e3 e4 (e6 rfl).1 (e6 rfl).2, sshpw13_text h2 h4 h5 rfl rfl]
      · rw [if_neg (by decide)]
        exact ⟨by rw [e4, h5], fun hge => absurd hlt (Nat.not_lt.2 hge), fun _ => e6 rfl⟩
    · obtain rfl := Option.some.inj (hc.symm.trans e)
      refine list_back hv (by decide) (by decide) hc (by decide) fun d hd => ?_
      have hp := hall d hd
      unfold SshPlain at hp
      rw [if_neg (by decide)] at hp
      obtain ⟨u, ws, h1, h2, h3, h4, h5⟩ := hp
      have hd' : PwIs d u ws (d.getD c!"sshkey").truthy (d.getD c!"lock").truthy (d.getD c!"isCrypted").truthy := ⟨h4, h5, rfl, fun _ => ⟨rfl, rfl⟩⟩
      refine ⟨_, pw_words h1 h3 (d.getD c!"sshkey").truthy (d.getD c!"lock").truthy (d.getD c!"isCrypted").truthy, sshpw24_text h2 hd', fun i => ?_⟩
      rw [texts_bare]
      obtain ⟨j, d', e1, e2, e3⟩ := sshpw24_parse (u := u) h2 (fun w hw => (h3 w hw).2.1) (sk := (d.getD c!"sshkey").truthy) (lk := (d.getD c!"lock").truthy) (c := (d.getD c!"isCrypted").truthy) i
      refine ⟨j, d', e1, e2, by rw [sshpw24_text h2 e3, sshpw24_text h2 hd'], by rw [e3.1, h4], ?_⟩
      rw [if_neg (by decide)]
      exact ⟨by rw [e3.2.1, h5], fun _ => e3.2.2.1, fun hq => e3.2.2.2 (hq.resolve_left (Nat.not_lt.2 hge))⟩

/-- C83: `C82_file` with less to ask. -/
theorem C83_file {v : Nat} (hv : Supported v) (hl : v ∉ liloVersions) (ls : List (Nat × List Str × Str))
    (hst : ∀ n c, (commandMap v).lookup n = some c → c.prio ≠ none → ¬ Unread (readLines v ls) n → fixedTextsOf v n = none → ¬ WordSettings v n (attrsOf (readLines v ls) n) →
      ¬ RawSettings n (attrsOf (readLines v ls) n) → ¬ SmallSettings v n (textOf (readLines v ls) n) (attrsOf (readLines v ls) n) →
      ¬ (n ∈ [c!"sshkey", c!"sshpw"] ∧ ∀ d ∈ dataOf (readLines v ls) n, SshPlain n d) → ¬ (textOf (readLines v ls) n = [] ∧ c.str c.new.inst = []) →
      (ListCommand v n ∧ n ∈ lossless.map (·.1) ∧ ∀ d ∈ dataOf (readLines v ls) n, WritesAll v n d ∧ OneLine v n d) ∨
      (OneLineOf v ls n ∧ KeepsAll v n (attrsOf (readLines v ls) n) ∧ OneCommand (textOf (readLines v ls) n)) ∨ StableText v n (textOf (readLines v ls) n))
    (hR : ∀ n, textOf (readLines v ls) n ≠ [] → ∀ a ∈ rivals n, textOf (readLines v ls) a = []) (k : Nat) :
    let r := runCommands Handler.dispatch k (lineItems (readLines v ls).str) (newHandler v)
    r.2 = none ∧ r.1.str = (readLines v ls).str := by
  refine C82_file hv hl ls (fun n c hc hp hu hf hw hr hs he => ?_) hR k
  by_cases h1 : n ∈ [c!"sshkey", c!"sshpw"] ∧ ∀ d ∈ dataOf (readLines v ls) n, SshPlain n d
  · refine .inr (.inr (C83_restores hv (readLines_session v ls) h1.1 (fun ho => he ⟨?_, ?_⟩) h1.2).1)
    · unfold textOf; rw [ho]
    · have hn := h1.1
      simp only [List.mem_cons, List.not_mem_nil, or_false] at hn
      rcases hn with rfl | rfl
      · rcases sshkey_class _ (supported_mem hv) with e | e
        · cases e.symm.trans hc
        · obtain rfl := Option.some.inj (hc.symm.trans e); rfl
      · rcases sshpw_class _ (supported_mem hv) with e | ⟨-, e⟩ | ⟨-, e⟩
        · cases e.symm.trans hc
        · obtain rfl := Option.some.inj (hc.symm.trans e); rfl
        · obtain rfl := Option.some.inj (hc.symm.trans e); rfl
  · exact hst n c hc hp hu hf hw hr hs h1 he

/-! ### The hypotheses can be met -/

def sshFile : List (Nat × List Str × Str) :=
  [(1, [c!"sshkey", c!"--username=root", c!"ssh-rsa AAAA= a@b # x"], []), (2, [c!"sshpw", c!"--username=u", c!"--lock", c!"--iscrypted", c!"$6$a"], []),
   (3, [c!"sshpw", c!"--username=w", c!"--sshkey", c!"ssh-rsa", c!"AAAA=", c!"a@b"], [])]

theorem C83_case :
    let h := readLines Version.F34 sshFile
    textOf h c!"sshkey" = c!"sshkey --username=root \"ssh-rsa AAAA= a@b # x\"\n" ∧
    textOf h c!"sshpw" = c!"sshpw --username=u --lock --iscrypted $6$a\nsshpw --username=w --sshkey ssh-rsa AAAA= a@b\n" ∧ (objectOf h c!"sshpw").isSome ∧
    PlainValue c!"root" ∧ Quotable c!"ssh-rsa AAAA= a@b # x" ∧ (dataOf h c!"sshkey").map (fun d => (d.getD c!"username", d.getD c!"key")) = [(.str c!"root", .str c!"ssh-rsa AAAA= a@b # x")] ∧
    (dataOf h c!"sshpw").map (fun d => (d.getD c!"username", d.getD c!"password")) = [(.str c!"u", .str (joinWith c!" " [c!"$6$a"])), (.str c!"w", .str (joinWith c!" " [c!"ssh-rsa", c!"AAAA=", c!"a@b"]))] ∧
    ∀ w ∈ [c!"$6$a", c!"ssh-rsa", c!"AAAA=", c!"a@b"], PlainWord w := by decide +kernel

/-- What is not restored: a key with quotation marks, a password with two blanks or a comment sign, and that an account with a key is locked (/repo/pykickstart/commands/sshkey.py:58, sshpw.py:82-93). -/
theorem C83_lost :
    ¬ StableText Version.F34 c!"sshkey" (textOf (readLines Version.F34 [(1, [c!"sshkey", c!"--username=root", c!"command=\"x\" ssh-rsa A"], [])]) c!"sshkey") ∧
    ¬ StableText Version.F34 c!"sshpw" (textOf (readLines Version.F34 [(1, [c!"sshpw", c!"--username=root", c!"a  b"], [])]) c!"sshpw") ∧
    ¬ StableText Version.F34 c!"sshpw" (textOf (readLines Version.F34 [(1, [c!"sshpw", c!"--username=root", c!"a#b"], [])]) c!"sshpw") ∧
    textOf (readLines Version.F34 [(1, [c!"sshpw", c!"--username=u", c!"--sshkey", c!"--lock", c!"A"], [])]) c!"sshpw" = c!"sshpw --username=u --sshkey A\n" ∧
    (dataOf (readLines Version.F34 [(1, [c!"sshpw", c!"--username=u", c!"--sshkey", c!"--lock", c!"A"], [])]) c!"sshpw").map (fun d => d.getD c!"lock") = [.bool true] := by decide +kernel

end Ks
