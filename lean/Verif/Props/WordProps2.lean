import Verif.Props.WordProps
/-!
# C78: the keyboard and the root password
-/
namespace Ks

open Cmd

/-! ## Specification -/

/-- The setting `k` is the list `ws`, or is not set and `ws` is empty. -/
def ListIs (d : Ns) (k : Str) (ws : List Str) : Prop := d.getD k = .list ws ∨ (d.getD k).truthy = false ∧ ws = []

theorem ListIs.truthy {d : Ns} {k : Str} {ws : List Str} (h : ListIs d k ws) : (d.getD k).truthy = !ws.isEmpty := by
  rcases h with h | ⟨h, rfl⟩
  · rw [h]; rfl
  · rw [h]; rfl

theorem ListIs.items {d : Ns} {k : Str} {ws : List Str} (h : ListIs d k ws) (hn : ws ≠ []) : (d.getD k).items = ws := by
  rcases h with h | ⟨-, h⟩
  · rw [h]; rfl
  · exact absurd h hn

/-- The setting `k` is the text `w`, or is not set and `w` is empty. -/
def StrIs (d : Ns) (k : Str) (w : Str) : Prop := d.getD k = .str w ∨ (d.getD k).truthy = false ∧ w = []

theorem StrIs.truthy {d : Ns} {k : Str} {w : Str} (h : StrIs d k w) : (d.getD k).truthy = !w.isEmpty := by
  rcases h with h | ⟨h, rfl⟩
  · rw [h]; rfl
  · rw [h]; rfl

theorem StrIs.fmt {d : Ns} {k : Str} {w : Str} (h : StrIs d k w) (hn : w ≠ []) : (d.getD k).fmt = w := by
  rcases h with h | ⟨-, h⟩
  · rw [h]; rfl
  · exact absurd h hn

/-- A word that can be written between single quotes. -/
def QuoteWord (w : Str) : Prop := w ≠ [] ∧ startsWith w c!"-" = false ∧ '\'' ∉ w ∧ NoBreak w

/-- An element of a list whose elements are written between single quotes. -/
def QuoteElem (w : Str) : Prop := CleanElem w ∧ '\'' ∉ w ∧ NoBreak w

/-- A password that is written as it is, or between double quotes because of a `#`. -/
def PlainPassword (w : Str) : Prop :=
  w ≠ [] ∧ startsWith w c!"-" = false ∧ ((∀ c ∈ w, PlainChar c) ∨ '#' ∈ w ∧ ∀ c ∈ w, c ≠ '"' ∧ c ≠ '\\' ∧ isLineBreak c = false)

theorem truthy_cons (a : Char) (t : Str) : (Val.str (a :: t)).truthy = true := rfl

theorem M.step {α β : Type} {m : M α} {f : α → M β} {h : Str → Option Bool} {i i' : Inst CState} {a : α} (e : m h i = (i', .ok a)) : (m >>= f) h i = f a h i' := by
  simp only [bind, e]

theorem M.parseKnown_ok {op : OptParser} {args : List Str} {r : Ns × List Str} {h : Str → Option Bool} {i : Inst CState} (e : op.parseKnown (some i.lineno) args = .ok r) :
    M.parseKnown op args h i = ({ i with attrs := { i.attrs with warned := i.attrs.warned ++ (op.warnings (some i.lineno) args).map Warn.deprecation } }, .ok r) := by
  simp only [M.parseKnown, e]

theorem M.parseArgs_ok {op : OptParser} {args : List Str} {r : Ns} {h : Str → Option Bool} {i : Inst CState} (e : op.parseArgs (some i.lineno) args = .ok r) :
    M.parseArgs op args h i = ({ i with attrs := { i.attrs with warned := i.attrs.warned ++ (op.warnings (some i.lineno) args).map Warn.deprecation } }, .ok r) := by
  simp only [M.parseArgs, e]

theorem M.failIf_no {c : Bool} (hc : c = false) {msg : Str} {h : Str → Option Bool} {i : Inst CState} : M.failIf c msg h i = (i, .ok ()) := by
  subst hc
  rfl

theorem M.when_yes {c : Bool} (hc : c = true) {m : M Unit} {h : Str → Option Bool} {i : Inst CState} : M.when c m h i = m h i := by
  subst hc
  rfl

theorem M.when_no {c : Bool} (hc : c = false) {m : M Unit} {h : Str → Option Bool} {i : Inst CState} : M.when c m h i = (i, .ok ()) := by
  subst hc
  rfl

/-! ## The keyboard before F18 -/

theorem keyboard_text {d : Ns} {w : Str} (hw : w ≠ []) (h : d.getD c!"keyboard" = .str w) : FC3_Keyboard.strOut.render d = c!"# System keyboard\nkeyboard " ++ w ++ c!"\n" := by
  cases w with
  | nil => exact absurd rfl hw
  | cons a t => simp [FC3_Keyboard.strOut, Out.render, pieceText, Cond.eval, Frag.render, h, Val.truthy, Val.fmt]

theorem keyboard_fc3 {v : Nat} (hv : Supported v) (hc : (commandMap v).lookup c!"keyboard" = some FC3_Keyboard.cls) {d : Ns} {w : Str} (hw : PlainWord w) (hd : d.getD c!"keyboard" = .str w) :
    ReadBack v c!"keyboard" (FC3_Keyboard.strOut.render d) fun d => d.getD c!"keyboard" = .str w := by
  refine plain_stable hv hc (by decide) (hd := c!"# System keyboard\n") (by decide) (by decide) (by decide) (g := [w].map bareWord) ?_ hd (fun d hd => by rw [keyboard_text hw.1 hd, wordsText_bare]; simp) fun i hi => ?_
  · simpa using bareWord_ok hw.1 hw.2.2
  · rw [texts_bare]
    obtain ⟨ns, hk, hns⟩ := front_word (l := some (i.lineno : Int)) (p := FC3_Keyboard.op) (a := FC3_Keyboard.op.actions[0]) (by decide +kernel) hw.2.1 (.inr rfl) (ts := []) (by simp)
    have hg : ns.getD c!"kbd" = .list [w] := by unfold Ns.getD; rw [show ns.get c!"kbd" = _ from hns.2.1]; rfl
    simp only [FC3_Keyboard.parse, bind, M.parseKnown, FC3_Keyboard.info]
    rw [show FC3_Keyboard.op.parseKnown (some (i.lineno : Int)) [w] = _ from hk]
    simp only [hg, Val.len, M.failIf, M.lift, Val.index, M.set]
    refine ⟨_, rfl, ?_⟩
    rw [selfOf_getD (by decide)]
    simp [Ns.getD, Ns.get_set_self]

/-! ## The keyboard from F18 -/

/-- The word in single quotes. -/
theorem keyboard_text1 {d : Ns} {w : Str} (hw : w ≠ []) (h : d.getD c!"_keyboard" = .str w) (h1 : (d.getD c!"vc_keymap").truthy = false) (h2 : (d.getD c!"x_layouts").truthy = false) :
    (F18_Keyboard.strOut F18_Keyboard.args).render d = c!"# Keyboard layouts\nkeyboard '" ++ w ++ c!"'\n" := by
  cases w with
  | nil => exact absurd rfl hw
  | cons a t => simp [F18_Keyboard.strOut, F18_Keyboard.args, Out.guard, Out.render, pieceText, Cond.eval, Frag.render, h, h1, h2, truthy_cons, Val.fmt]

theorem keyboard_f18_word {v : Nat} (hv : Supported v) (hc : (commandMap v).lookup c!"keyboard" = some F18_Keyboard.cls) {d : Ns} {w : Str} (hw : QuoteWord w) (hd : d.getD c!"_keyboard" = .str w)
    (h1 : (d.getD c!"vc_keymap").truthy = false) (h2 : (d.getD c!"x_layouts").truthy = false) : ReadBack v c!"keyboard" ((F18_Keyboard.strOut F18_Keyboard.args).render d)
      fun d => d.getD c!"_keyboard" = .str w ∧ (d.getD c!"vc_keymap").truthy = false ∧ (d.getD c!"x_layouts").truthy = false := by
  obtain ⟨w1, w2, w3, w4⟩ := hw
  refine plain_stable hv hc (by decide) (hd := c!"# Keyboard layouts\n") (by decide) (by decide) (by decide) (g := [(c!" ", [.single w])]) ?_ ⟨hd, h1, h2⟩
    (fun d hd => by rw [keyboard_text1 w1 hd.1 hd.2.1 hd.2.2]; simp [wordsText, Word.render, Seg.render]) fun i hi => ?_
  · simp only [List.mem_singleton, forall_eq]
    refine ⟨by decide, by decide, ⟨by simp, by simpa [Seg.Ok] using w3⟩, ?_⟩
    intro c hc
    simp only [Word.render, Seg.render, List.map_cons, List.map_nil, List.flatten_cons, List.flatten_nil, List.append_nil, List.mem_append, List.mem_singleton] at hc
    rcases hc with (rfl | hc) | rfl
    · rfl
    · exact w4 c hc
    · rfl
  · have e : ([(c!" ", [Seg.single w])] : List (Str × Word)).map (fun x => x.2.text) = [w] := by simp [Word.text, Seg.text]
    rw [e]
    obtain ⟨ns, hk, hns⟩ := front_word (l := some (i.lineno : Int)) (p := F18_Keyboard.op) (a := F18_Keyboard.op.actions[0]) (by decide +kernel) w2 (.inr rfl) (ts := []) (by simp)
    have hg : ns.getD c!"kbd" = .list [w] := by unfold Ns.getD; rw [show ns.get c!"kbd" = _ from hns.2.1]; rfl
    refine ⟨_, (M.step (M.parseKnown_ok hk)).trans ((M.step rfl).trans ((M.step (M.failIf_no (by simp only [hg]; rfl))).trans ((M.step (M.failIf_no rfl)).trans
      ((M.step rfl).trans ((M.step (M.failIf_no (by simp only [hg]; rfl))).trans ((M.step ((M.when_yes (by simp only [hg]; rfl)).trans
        ((M.step (by simp only [hg]; rfl)).trans rfl))).trans rfl)))))), ?_, ?_, ?_⟩
    · rw [selfOf_getD (by decide)]
      simp [Ns.getD, Ns.get_set_self]
    · rw [selfOf_getD (by decide)]
      simp only [Ns.getD, Ns.get_set, hi]
      rw [(setTo_get (by simp) hns).2 c!"vc_keymap" (by decide) (.str []) rfl (by simp)]
      rfl
    · rw [selfOf_getD (by decide)]
      simp only [Ns.getD, Ns.get_set, hi]
      rw [setTo_keep hns (k := c!"x_layouts") (by decide) rfl]
      rfl

/-- Elements in single quotes with commas between them. -/
def quotedSegs : List Str → Word
  | [] => []
  | [x] => [.single x]
  | x :: y :: t => .single x :: .bare ',' :: quotedSegs (y :: t)

theorem quotedSegs_render (xs : List Str) : (quotedSegs xs).render = joinWith c!"," (xs.map fun x => c!"'" ++ x ++ c!"'") := by
  induction xs with
  | nil => rfl
  | cons x t ih =>
    cases t with
    | nil => simp [quotedSegs, Word.render, Seg.render, joinWith]
    | cons y t =>
      simp only [Word.render, List.map_cons] at ih
      simp [quotedSegs, Word.render, Seg.render, joinWith, ih]

theorem quotedSegs_text (xs : List Str) : (quotedSegs xs).text = joinWith c!"," xs := by
  induction xs with
  | nil => rfl
  | cons x t ih =>
    cases t with
    | nil => simp [quotedSegs, Word.text, Seg.text, joinWith]
    | cons y t =>
      simp only [Word.text] at ih
      simp [quotedSegs, Word.text, Seg.text, joinWith, ih]

theorem quotedSegs_ok {xs : List Str} (h : ∀ x ∈ xs, '\'' ∉ x) : ∀ s ∈ quotedSegs xs, s.Ok true := by
  induction xs with
  | nil => simp [quotedSegs]
  | cons x t ih =>
    have hx := h x (by simp)
    cases t with
    | nil => simpa [quotedSegs, Seg.Ok] using hx
    | cons y t =>
      intro s hs
      simp only [quotedSegs, List.mem_cons] at hs
      rcases hs with rfl | rfl | hs
      · exact hx
      · show BareChar true ','
        unfold BareChar
        decide
      · exact ih (fun z hz => h z (by simp [hz])) s hs

theorem join_noBreak {xs : List Str} (h : ∀ x ∈ xs, NoBreak x) : NoBreak (joinWith c!"," xs) := by
  induction xs with
  | nil => intro c hc; cases hc
  | cons a t ih =>
    cases t with
    | nil => simpa [joinWith] using h
    | cons b t =>
      intro c hc
      simp only [joinWith, List.append_assoc, List.mem_append, List.mem_cons, List.not_mem_nil, or_false] at hc
      rcases hc with hc | hc | hc
      · exact h a (by simp) c hc
      · rw [hc]; rfl
      · exact ih (fun x hx => h x (by simp [hx])) c hc

/-- An option with such a list. -/
def listWord (o : Str) (xs : List Str) : Str × Word := (c!" ", o.map Seg.bare ++ quotedSegs xs)

theorem listWord_text (o : Str) (xs : List Str) : (listWord o xs).2.text = o ++ joinWith c!"," xs := by
  rw [← quotedSegs_text]
  conv => rhs; lhs; rw [← word_bare_text o]
  simp only [listWord, Word.text, List.map_append, List.flatten_append]

theorem listWord_render (o : Str) (xs : List Str) : (listWord o xs).2.render = o ++ joinWith c!"," (xs.map fun x => c!"'" ++ x ++ c!"'") := by
  rw [← quotedSegs_render]
  conv => rhs; lhs; rw [← word_bare_render o]
  simp only [listWord, Word.render, List.map_append, List.flatten_append]

theorem listWord_ok {o : Str} (ho : o ≠ []) (h : ∀ c ∈ o, PlainChar c) {xs : List Str} (hx : ∀ x ∈ xs, QuoteElem x) :
    (listWord o xs).1 ≠ [] ∧ (∀ c ∈ (listWord o xs).1, c = ' ') ∧ (listWord o xs).2.Ok true ∧ NoBreak (listWord o xs).2.render := by
  refine ⟨by simp [listWord], by simp [listWord], ⟨by simp [listWord, ho], fun s hs => ?_⟩, ?_⟩
  · rcases List.mem_append.1 hs with hs | hs
    · exact (word_bare_ok ho fun c hc => (h c hc).1).2 s hs
    · exact quotedSegs_ok (fun x hx' => (hx x hx').2.1) s hs
  · rw [listWord_render]
    intro c hc
    rcases List.mem_append.1 hc with hc | hc
    · exact break_space (h c hc).2
    · refine join_noBreak (fun x hx' => ?_) c hc
      obtain ⟨y, hy, rfl⟩ := List.mem_map.1 hx'
      intro c hc
      simp only [List.mem_append, List.mem_singleton] at hc
      rcases hc with (rfl | hc) | rfl
      · rfl
      · exact (hx y hy).2.2 c hc
      · rfl

/-- An option with a value, unless the value is empty. -/
def valTok (o w : Str) : List Tok := if w.isEmpty then [] else [⟨o, some w⟩]

def keyboardToks (vc xs sw : Str) : List Tok := valTok c!"--vckeymap" vc ++ valTok c!"--xlayouts" xs ++ valTok c!"--switch" sw

theorem keyboard_ns (l : Option Int) (vc xs sw : Str) : ∃ ns, F18_Keyboard.op.parseKnown l ((keyboardToks vc xs sw).map Tok.text) = .ok (ns, []) ∧ ns.getD c!"kbd" = .list [] ∧
    (setToObj ns F18_Keyboard.init).get c!"vc_keymap" = some (.str vc) ∧ (setToObj ns F18_Keyboard.init).get c!"x_layouts" = some (.list (commaSplit xs)) ∧
    (setToObj ns F18_Keyboard.init).get c!"switch_options" = some (.list (commaSplit sw)) ∧ (setToObj ns F18_Keyboard.init).get c!"_keyboard" = some (.str []) := by
  have hok : ∀ t ∈ keyboardToks vc xs sw, TokOk F18_Keyboard.op l t := by
    intro t ht
    simp only [keyboardToks, valTok, List.mem_append] at ht
    rcases ht with (ht | ht) | ht <;> split at ht <;> first | (rw [List.mem_singleton] at ht; subst ht; exact ⟨_, _, rfl, .inl rfl, rfl⟩) | cases ht
  obtain ⟨ns, hk, hns⟩ := back_words (l := l) (p := F18_Keyboard.op) (a := F18_Keyboard.op.actions[0]) (by decide +kernel) (ws := []) (by simp) (v := .list []) rfl rfl hok
  refine ⟨ns, by simpa using hk, by unfold Ns.getD; rw [show ns.get c!"kbd" = _ from hns.2.1]; rfl, ?_, ?_, ?_, ?_⟩
  · cases vc <;> cases xs <;> cases sw <;> exact (setTo_get (by simp) hns).2 _ (by decide) _ rfl (by simp)
  · cases vc <;> cases xs <;> cases sw <;> first | exact (setTo_get (by simp) hns).2 _ (by decide) _ rfl (by simp) | exact (setTo_keep hns (by decide) rfl).trans rfl
  · cases vc <;> cases xs <;> cases sw <;> first | exact (setTo_get (by simp) hns).2 _ (by decide) _ rfl (by simp) | exact (setTo_keep hns (by decide) rfl).trans rfl
  · rw [C16_set_to_obj _ _ hns.1, hns.2.2 _ (by decide)]
    cases vc <;> cases xs <;> cases sw <;> rfl

/-- The layouts and the options for switching between them. -/
structure LayoutsAre (d : Ns) (vc : Str) (xs sw : List Str) : Prop where
  old : (d.getD c!"_keyboard").truthy = false
  vc : StrIs d c!"vc_keymap" vc
  xs : ListIs d c!"x_layouts" xs
  sw : ListIs d c!"switch_options" sw

def keyboardWords (vc : Str) (xs sw : List Str) : List (Str × Word) :=
  (if vc.isEmpty then [] else [bareWord (c!"--vckeymap=" ++ vc)]) ++ (if xs.isEmpty then [] else [listWord c!"--xlayouts=" xs]) ++ (if sw.isEmpty then [] else [listWord c!"--switch=" sw])

theorem keyboard_text2 {d : Ns} {vc : Str} {xs sw : List Str} (h : LayoutsAre d vc xs sw) (hn : vc ≠ [] ∨ xs ≠ []) :
    (F18_Keyboard.strOut F18_Keyboard.args).render d = c!"# Keyboard layouts\n" ++ (c!"keyboard" ++ wordsText (keyboardWords vc xs sw) ++ c!"\n") := by
  obtain ⟨h1, h2, h3, h4⟩ := h
  have t2 := h2.truthy
  have t3 := h3.truthy
  have t4 := h4.truthy
  have e : ∀ w, (bareWord w).2.render = w := word_bare_render
  rcases vc with _ | ⟨a, vc⟩ <;> rcases xs with _ | ⟨b, xs⟩ <;> rcases sw with _ | ⟨c, sw⟩ <;>
    simp [F18_Keyboard.strOut, F18_Keyboard.args, Out.guard, Out.render, pieceText, Cond.eval, Frag.render, h1, t2, t3, t4, keyboardWords, wordsText, e, listWord_render, show ∀ w, (bareWord w).1 = c!" " from fun _ => rfl,
      show ∀ o w, (listWord o w).1 = c!" " from fun _ _ => rfl] at hn ⊢ <;>
    simp [h2.fmt, h3.items, h4.items]

theorem keyboard_f18_layouts {v : Nat} (hv : Supported v) (hc : (commandMap v).lookup c!"keyboard" = some F18_Keyboard.cls) {d : Ns} {vc : Str} {xs sw : List Str} (hd : LayoutsAre d vc xs sw)
    (hn : vc ≠ [] ∨ xs ≠ []) (h1 : ∀ c ∈ vc, PlainChar c) (h2 : ∀ x ∈ xs, QuoteElem x) (h3 : ∀ x ∈ sw, QuoteElem x) : ReadBack v c!"keyboard" ((F18_Keyboard.strOut F18_Keyboard.args).render d)
      fun d => LayoutsAre d vc xs sw := by
  refine plain_stable hv hc (by decide) (hd := c!"# Keyboard layouts\n") (by decide) (by decide) (by decide) (g := keyboardWords vc xs sw) ?_ hd (fun d hd => keyboard_text2 hd hn) fun i hi => ?_
  · intro x hx
    simp only [keyboardWords, List.mem_append] at hx
    rcases hx with (hx | hx) | hx <;> split at hx
    · cases hx
    · rw [List.mem_singleton] at hx
      subst hx
      refine bareWord_ok (by simp) fun c hc => ?_
      rcases List.mem_append.1 hc with hc | hc
      · clear * - hc
        revert c
        decide
      · exact h1 c hc
    · cases hx
    · rw [List.mem_singleton] at hx
      subst hx
      exact listWord_ok (by decide) (by decide) h2
    · cases hx
    · rw [List.mem_singleton] at hx
      subst hx
      exact listWord_ok (by decide) (by decide) h3
  · have join_nil : ∀ {ys : List Str}, (∀ x ∈ ys, QuoteElem x) → (joinWith c!"," ys).isEmpty = ys.isEmpty := by
      intro ys hy
      rcases ys with _ | ⟨a, _ | ⟨b, t⟩⟩
      · rfl
      · have := (hy a (by simp)).1.1
        cases a with
        | nil => exact absurd rfl this
        | cons _ _ => rfl
      · simp [joinWith]
    have e : (keyboardWords vc xs sw).map (fun x => x.2.text) = (keyboardToks vc (joinWith c!"," xs) (joinWith c!"," sw)).map Tok.text := by
      simp only [keyboardWords, keyboardToks, valTok, List.map_append, join_nil h2, join_nil h3]
      congr 1
      · congr 1
        · split
          · rfl
          · exact congrArg (fun w => [w]) (word_bare_text _)
        · split
          · rfl
          · exact congrArg (fun w => [w]) (listWord_text _ _)
      · split
        · rfl
        · exact congrArg (fun w => [w]) (listWord_text _ _)
    rw [e]
    obtain ⟨ns, hk, hg, g1, g2, g3, g4⟩ := keyboard_ns (some (i.lineno : Int)) vc (joinWith c!"," xs) (joinWith c!"," sw)
    rw [C05_roundtrip xs fun x hx => (h2 x hx).1] at g2
    rw [C05_roundtrip sw fun x hx => (h3 x hx).1] at g3
    rw [← hi] at g1 g2 g3 g4
    have get : ∀ {k : Str} {x : Val} {a : List Ns} {b : List Warn} {j : Inst CState}, k ≠ c!"seen" → (setToObj ns i.attrs.attrs).get k = some x →
        (selfOf { j with attrs := ⟨setToObj ns i.attrs.attrs, a, b⟩ }).getD k = x := by
      intro k x a b j hk hx
      rw [selfOf_getD hk]
      simp only [Ns.getD, hx]
      rfl
    have l1 : ∀ {a : List Ns} {b : List Warn} {j : Inst CState}, (!((ns.getD c!"kbd").truthy || ((selfOf { j with attrs := ⟨setToObj ns i.attrs.attrs, a, b⟩ }).getD c!"vc_keymap").truthy ||
        ((selfOf { j with attrs := ⟨setToObj ns i.attrs.attrs, a, b⟩ }).getD c!"x_layouts").truthy)) = false := by
      intro a b j
      rw [get (by decide) g1, get (by decide) g2, hg]
      rcases hn with hn | hn
      · cases vc with
        | nil => exact absurd rfl hn
        | cons _ _ => rfl
      · cases xs with
        | nil => exact absurd rfl hn
        | cons _ _ => cases vc <;> rfl
    refine ⟨_, (M.step (M.parseKnown_ok hk)).trans ((M.step rfl).trans ((M.step (M.failIf_no (by simp only [hg]; rfl))).trans ((M.step (M.failIf_no rfl)).trans
      ((M.step rfl).trans ((M.step (M.failIf_no l1)).trans ((M.step (M.when_no (by simp only [hg]; rfl))).trans rfl)))))), ?_⟩
    refine ⟨?_, .inl (get (by decide) g1), .inl (get (by decide) g2), .inl (get (by decide) g3)⟩
    rw [get (by decide) g4]
    rfl

/-! ## The root password -/

def passwordWord (w : Str) : Str × Word := (c!" ", if '#' ∈ w then [.dbl (w.map .plain)] else w.map .bare)

theorem dbl_text (w : Str) : ((w.map DItem.plain).map DItem.text).flatten = w := by
  induction w with
  | nil => rfl
  | cons a t ih => simpa [DItem.text] using ih

theorem dbl_render (w : Str) : ((w.map DItem.plain).map DItem.render).flatten = w := by
  induction w with
  | nil => rfl
  | cons a t ih => simpa [DItem.render] using ih

theorem passwordWord_text (w : Str) : (passwordWord w).2.text = w := by
  unfold passwordWord
  split
  · simpa [Word.text, Seg.text] using dbl_text w
  · exact word_bare_text w

theorem passwordWord_render (w : Str) : (passwordWord w).2.render = if '#' ∈ w then c!"\"" ++ w ++ c!"\"" else w := by
  unfold passwordWord
  split
  · simpa [Word.render, Seg.render] using dbl_render w
  · exact word_bare_render w

theorem passwordWord_ok {w : Str} (h : PlainPassword w) :
    (passwordWord w).1 ≠ [] ∧ (∀ c ∈ (passwordWord w).1, c = ' ') ∧ (passwordWord w).2.Ok true ∧ NoBreak (passwordWord w).2.render := by
  obtain ⟨h1, -, h3⟩ := h
  refine ⟨by simp [passwordWord], by simp [passwordWord], ?_, ?_⟩
  · unfold passwordWord
    split
    · rename_i hm
      refine ⟨by simp, fun s hs => ?_⟩
      rw [List.mem_singleton] at hs
      subst hs
      intro i hi
      obtain ⟨c, hc, rfl⟩ := List.mem_map.1 hi
      rcases h3 with h3 | h3
      · exact absurd rfl ((h3 _ hm).1.2.2.2 rfl)
      · obtain ⟨g1, g2, -⟩ := h3.2 c hc
        exact ⟨g1, g2⟩
    · rename_i hm
      rcases h3 with h3 | h3
      · exact word_bare_ok h1 fun c hc => (h3 c hc).1
      · exact absurd h3.1 hm
  · rw [passwordWord_render]
    have hw : NoBreak w := by
      rcases h3 with h3 | h3
      · exact fun c hc => break_space (h3 c hc).2
      · exact fun c hc => (h3.2 c hc).2.2
    split
    · intro c hc
      simp only [List.mem_append, List.mem_singleton] at hc
      rcases hc with (rfl | hc) | rfl
      · rfl
      · exact hw c hc
      · rfl
    · exact hw

/-- The options before the password. -/
def passwordOpts (plain c l : Bool) : List Tok :=
  (if c then [⟨c!"--iscrypted", none⟩] else []) ++ (if l then [⟨c!"--lock", none⟩] else []) ++ (if plain && !c then [⟨c!"--plaintext", none⟩] else [])

theorem rootpw_text3 {d : Ns} {w : Str} (hw : w ≠ []) (h : d.getD c!"password" = .str w) :
    (FC3_RootPw.strOut FC3_RootPw.args).render d =
      c!"# Root password\n" ++ (c!"rootpw" ++ wordsText (((passwordOpts false (d.getD c!"isCrypted").truthy false).map Tok.text).map bareWord ++ [passwordWord w]) ++ c!"\n") := by
  cases w with
  | nil => exact absurd rfl hw
  | cons a t =>
    have e : ∀ g r, wordsText (g ++ [r]) = wordsText g ++ (r.1 ++ r.2.render) := fun g r => by simp [wordsText]
    rw [e, wordsText_bare, passwordWord_render]
    by_cases hm : '#' ∈ a :: t <;> cases hc : (d.getD c!"isCrypted").truthy <;>
      simp [FC3_RootPw.strOut, FC3_RootPw.args, Out.guard, Out.render, pieceText, Cond.eval, Frag.render, h, hc, truthy_cons, Val.fmt, passwordOpts, Tok.text, valText, passwordWord, hm]

theorem rootpw_text8 {d : Ns} {w : Str} (hw : w ≠ []) (h : d.getD c!"password" = .str w) :
    (FC3_RootPw.strOut F8_RootPw.args).render d =
      c!"# Root password\n" ++ (c!"rootpw" ++ wordsText (((passwordOpts true (d.getD c!"isCrypted").truthy (d.getD c!"lock").truthy).map Tok.text).map bareWord ++ [passwordWord w]) ++ c!"\n") := by
  cases w with
  | nil => exact absurd rfl hw
  | cons a t =>
    have e : ∀ g r, wordsText (g ++ [r]) = wordsText g ++ (r.1 ++ r.2.render) := fun g r => by simp [wordsText]
    rw [e, wordsText_bare, passwordWord_render]
    by_cases hm : '#' ∈ a :: t <;> cases hc : (d.getD c!"isCrypted").truthy <;> cases hl : (d.getD c!"lock").truthy <;>
      simp [FC3_RootPw.strOut, F8_RootPw.args, FC3_RootPw.args, Out.guard, Out.render, pieceText, Cond.eval, Frag.render, h, hc, hl, truthy_cons, Val.fmt, passwordOpts, Tok.text, valText, passwordWord, hm]

/-- What a new object has after the line. -/
theorem new_getD {j : Inst CState} {ns init : Ns} (hj : j.attrs.attrs = setToObj ns init) {k : Str} {x : Val} (hk : k ≠ c!"seen") (hx : (setToObj ns init).get k = some x) :
    (selfOf j).getD k = x := by
  rw [selfOf_getD hk]
  simp only [Ns.getD, hj, hx]
  rfl

/-- The line has been read and the object has the attributes `a`. -/
theorem read_done {m : M Unit} {h : Str → Option Bool} {i j : Inst CState} {Q : Ns → Prop} {a : Ns} (h1 : m h i = (j, .ok ())) (h2 : j.attrs.attrs = a)
    (h3 : ∀ j : Inst CState, j.attrs.attrs = a → Q (selfOf j)) : ∃ j, m h i = (j, .ok ()) ∧ Q (selfOf j) :=
  ⟨j, h1, h3 j h2⟩

theorem passwordOpts_ok {p c l : Bool} : ∀ x ∈ ((passwordOpts p c l).map Tok.text).map bareWord, x.1 ≠ [] ∧ (∀ c ∈ x.1, c = ' ') ∧ x.2.Ok true ∧ NoBreak x.2.render := by
  intro x hx
  obtain ⟨y, hy, rfl⟩ := List.mem_map.1 hx
  have : ∀ p c l, ∀ y ∈ (passwordOpts p c l).map Tok.text, y ≠ [] ∧ ∀ c ∈ y, PlainChar c := by decide
  exact bareWord_ok (this p c l y hy).1 (this p c l y hy).2

theorem password_words {p c l : Bool} (w : Str) : (((passwordOpts p c l).map Tok.text).map bareWord ++ [passwordWord w]).map (fun x => x.2.text) = (passwordOpts p c l).map Tok.text ++ [w] := by
  rw [List.map_append, texts_bare]
  simp [passwordWord_text]

theorem password_all {p c l : Bool} {w : Str} (hw : PlainPassword w) :
    ∀ x ∈ ((passwordOpts p c l).map Tok.text).map bareWord ++ [passwordWord w], x.1 ≠ [] ∧ (∀ c ∈ x.1, c = ' ') ∧ x.2.Ok true ∧ NoBreak x.2.render := by
  intro x hx
  rcases List.mem_append.1 hx with hx | hx
  · exact passwordOpts_ok x hx
  · rw [List.mem_singleton] at hx
    subst hx
    exact passwordWord_ok hw

/-- The password and whether it is encrypted. -/
def PasswordIs (d : Ns) (w : Str) (c : Bool) : Prop := d.getD c!"password" = .str w ∧ (d.getD c!"isCrypted").truthy = c

theorem rootpw_fc3 {v : Nat} (hv : Supported v) (hc : (commandMap v).lookup c!"rootpw" = some FC3_RootPw.cls) {d : Ns} {w : Str} (hw : PlainPassword w) {c : Bool} (hd0 : PasswordIs d w c) :
    ReadBack v c!"rootpw" ((FC3_RootPw.strOut FC3_RootPw.args).render d) fun d => PasswordIs d w c := by
  refine plain_stable hv hc (by decide) (hd := c!"# Root password\n") (by decide) (by decide) (by decide) (password_all hw) hd0 (fun d hd => by rw [rootpw_text3 hw.1 hd.1, hd.2]) fun i hi => ?_
  rw [password_words]
  have hok : ∀ t ∈ passwordOpts false c false, TokOk FC3_RootPw.op (some (i.lineno : Int)) t := by
    cases c
    · intro t ht; cases ht
    · intro t ht
      simp only [passwordOpts, if_true, Bool.false_and, Bool.false_eq_true, if_false, List.append_nil, List.mem_singleton] at ht
      subst ht
      exact ⟨_, _, rfl, rfl, rfl⟩
  obtain ⟨ns, hk, hns⟩ := back_words (l := some (i.lineno : Int)) (p := FC3_RootPw.op) (a := FC3_RootPw.op.actions[0]) (by decide +kernel) (ws := [w]) (by simpa using hw.2.1)
    (getValues_word hw.2.1 rfl rfl rfl) rfl hok
  obtain ⟨g1, g2⟩ := setTo_get (obj := FC3_RootPw.init) (by simp) hns
  have hg : ns.getD c!"password" = .str w := by unfold Ns.getD; rw [show ns.get c!"password" = _ from hns.2.1]; rfl
  have ht : (Val.str w).truthy = true := by
    cases w with
    | nil => exact absurd rfl hw.1
    | cons _ _ => rfl
  refine read_done (Q := fun d => PasswordIs d w c) ((M.step (M.parseKnown_ok hk)).trans ((M.step (M.failIf_no (by simp only [hg, ht]; rfl))).trans ((M.step (M.failIf_no rfl)).trans rfl))) (congrArg (setToObj ns) hi) fun j hj => ?_
  have e2 : (setToObj ns FC3_RootPw.init).get c!"isCrypted" = some (.bool c) := by
    cases c <;> exact g2 _ (by decide) _ rfl (by simp)
  exact ⟨new_getD hj (by decide) g1, by rw [new_getD hj (by decide) e2]; rfl⟩

theorem passwordOpts_toks {c lk : Bool} {l : Option Int} : ∀ t ∈ passwordOpts true c lk, TokOk F8_RootPw.op l t := by
  intro t ht
  simp only [passwordOpts, List.mem_append] at ht
  rcases ht with (ht | ht) | ht <;> split at ht <;> first | (rw [List.mem_singleton] at ht; subst ht; exact ⟨_, _, rfl, rfl, rfl⟩) | cases ht

/-- The settings after the line. -/
theorem rootpw_ns {w : Str} (hw : startsWith w c!"-" = false) (c lk : Bool) (l : Option Int) : ∃ ns, F8_RootPw.op.parseKnown l ((passwordOpts true c lk).map Tok.text ++ [w]) = .ok (ns, []) ∧
    ns.getD c!"password" = .str w ∧ (setToObj ns F8_RootPw.init).get c!"password" = some (.str w) ∧ (setToObj ns F8_RootPw.init).get c!"isCrypted" = some (.bool c) ∧
    (setToObj ns F8_RootPw.init).get c!"lock" = some (.bool lk) := by
  obtain ⟨ns, hk, hns⟩ := back_words (l := l) (p := F8_RootPw.op) (a := F8_RootPw.op.actions[0]) (by decide +kernel) (ws := [w]) (by simpa using hw)
    (getValues_word hw rfl rfl rfl) rfl passwordOpts_toks
  obtain ⟨g1, g2⟩ := setTo_get (obj := F8_RootPw.init) (by simp) hns
  refine ⟨ns, hk, by unfold Ns.getD; rw [show ns.get c!"password" = _ from hns.2.1]; rfl, g1, ?_, ?_⟩ <;>
    cases c <;> cases lk <;> exact g2 _ (by decide) _ rfl (by simp)

theorem rootpw_f8 {v : Nat} (hv : Supported v) (hc : (commandMap v).lookup c!"rootpw" = some F8_RootPw.cls) {d : Ns} {w : Str} (hw : PlainPassword w) {c lk : Bool} (hd0 : PasswordIs d w c ∧ (d.getD c!"lock").truthy = lk) :
    ReadBack v c!"rootpw" ((FC3_RootPw.strOut F8_RootPw.args).render d) fun d => PasswordIs d w c ∧ (d.getD c!"lock").truthy = lk := by
  refine plain_stable hv hc (by decide) (hd := c!"# Root password\n") (by decide) (by decide) (by decide) (password_all hw) hd0 (fun d hd => by rw [rootpw_text8 hw.1 hd.1.1, hd.1.2, hd.2]) fun i hi => ?_
  rw [password_words]
  obtain ⟨ns, hk, hg, g1, g2, g3⟩ := rootpw_ns hw.2.1 c lk (some (i.lineno : Int))
  have ht : (Val.str w).truthy = true := by
    cases w with
    | nil => exact absurd rfl hw.1
    | cons _ _ => rfl
  refine read_done (Q := fun d => PasswordIs d w c ∧ (d.getD c!"lock").truthy = lk) ((M.step (M.parseKnown_ok hk)).trans ((M.step (M.failIf_no (by simp only [hg, ht]; rfl))).trans ((M.step (M.failIf_no rfl)).trans rfl))) (congrArg (setToObj ns) hi) fun j hj => ?_
  exact ⟨⟨new_getD hj (by decide) g1, by rw [new_getD hj (by decide) g2]; rfl⟩, by rw [new_getD hj (by decide) g3]; rfl⟩

theorem rootpw_text18 {d : Ns} (h : (d.getD c!"password").truthy = true) : (F18_RootPw.strOut F8_RootPw.args).render d = (FC3_RootPw.strOut F8_RootPw.args).render d := by
  simp [F18_RootPw.strOut, FC3_RootPw.strOut, F8_RootPw.args, FC3_RootPw.args, Out.guard, Out.render, pieceText, Cond.eval, h]

theorem rootpw_text_lock {d : Ns} (h : (d.getD c!"password").truthy = false) (hl : (d.getD c!"lock").truthy = true) :
    (F18_RootPw.strOut F8_RootPw.args).render d = c!"#Root password\nrootpw --lock\n" := by
  simp [F18_RootPw.strOut, FC3_RootPw.strOut, F8_RootPw.args, FC3_RootPw.args, Out.guard, Out.render, pieceText, Cond.eval, Frag.render, h, hl]

theorem rootpw_f18 {v : Nat} (hv : Supported v) (hc : (commandMap v).lookup c!"rootpw" = some F18_RootPw.cls) {d : Ns} {w : Str} (hw : PlainPassword w) {c lk : Bool} (hd0 : PasswordIs d w c ∧ (d.getD c!"lock").truthy = lk) :
    ReadBack v c!"rootpw" ((F18_RootPw.strOut F8_RootPw.args).render d) fun d => PasswordIs d w c ∧ (d.getD c!"lock").truthy = lk := by
  have ht : (Val.str w).truthy = true := by
    cases w with
    | nil => exact absurd rfl hw.1
    | cons _ _ => rfl
  refine plain_stable hv hc (by decide) (hd := c!"# Root password\n") (by decide) (by decide) (by decide) (password_all hw) hd0 (fun d hd => by rw [rootpw_text18 (by rw [hd.1.1, ht]), rootpw_text8 hw.1 hd.1.1, hd.1.2, hd.2]) fun i hi => ?_
  rw [password_words]
  obtain ⟨ns, hk, hg, g1, g2, g3⟩ := rootpw_ns hw.2.1 c lk (some (i.lineno : Int))
  refine read_done (Q := fun d => PasswordIs d w c ∧ (d.getD c!"lock").truthy = lk) ((M.step (M.parseKnown_ok hk)).trans ((M.step (M.failIf_no (by simp only [hg, ht]; rfl))).trans ((M.step (M.failIf_no rfl)).trans rfl))) (congrArg (setToObj ns) hi) fun j hj => ?_
  exact ⟨⟨new_getD hj (by decide) g1, by rw [new_getD hj (by decide) g2]; rfl⟩, by rw [new_getD hj (by decide) g3]; rfl⟩

theorem rootpw_f18_lock {v : Nat} (hv : Supported v) (hc : (commandMap v).lookup c!"rootpw" = some F18_RootPw.cls) {d : Ns} (h1 : (d.getD c!"password").truthy = false)
    (h2 : (d.getD c!"lock").truthy = true) : ReadBack v c!"rootpw" ((F18_RootPw.strOut F8_RootPw.args).render d)
      fun d => (d.getD c!"password").truthy = false ∧ (d.getD c!"lock").truthy = true := by
  refine plain_stable hv hc (by decide) (hd := c!"#Root password\n") (by decide) (by decide) (by decide) (g := [c!"--lock"].map bareWord) ?_ ⟨h1, h2⟩ (fun d hd => rootpw_text_lock hd.1 hd.2) fun i hi => ?_
  · intro x hx
    obtain ⟨y, hy, rfl⟩ := List.mem_map.1 hx
    rw [List.mem_singleton] at hy
    subst hy
    exact bareWord_ok (by decide) (by decide)
  · rw [texts_bare]
    obtain ⟨ns, hk, hns⟩ := back_words (l := some (i.lineno : Int)) (p := F8_RootPw.op) (a := F8_RootPw.op.actions[0]) (by decide +kernel) (ws := []) (by simp) (v := .none) rfl rfl
      (ts := [⟨c!"--lock", none⟩]) (by simp only [List.mem_singleton, forall_eq]; exact ⟨_, _, rfl, rfl, rfl⟩)
    have hl : ns.get c!"lock" = some (.bool true) := (hns.2.2 _ (by decide)).trans rfl
    have g1 : (setToObj ns F18_RootPw.init).get c!"password" = some (.str []) := by
      rw [C16_set_to_obj _ _ hns.1, show ns.get c!"password" = _ from hns.2.1]
      rfl
    have g2 : (setToObj ns F18_RootPw.init).get c!"lock" = some (.bool true) := by
      rw [C16_set_to_obj _ _ hns.1, hl]
    have hl' : ns.getD c!"lock" = .bool true := by unfold Ns.getD; rw [hl]; rfl
    refine read_done (Q := fun d => (d.getD c!"password").truthy = false ∧ (d.getD c!"lock").truthy = true) ((M.step (M.parseKnown_ok hk)).trans ((M.step (M.failIf_no (by simp only [hl', Val.truthy, Bool.or_true, Bool.not_true]))).trans ((M.step (M.failIf_no rfl)).trans rfl))) (congrArg (setToObj ns) hi) fun j hj => ?_
    refine ⟨?_, ?_⟩
    · rw [new_getD hj (by decide) g1]; rfl
    · rw [new_getD hj (by decide) g2]; rfl

end Ks
