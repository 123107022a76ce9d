import Verif.Commands.Template
/-!
# The shell lexer on a written template

`symGo_sound`: the words that the symbolic lexer finds are the words that `shlex.split` finds, if the
texts of the fields can stand where they are.
-/
namespace Ks

/-- The text of a field can stand outside quotes: no blank, quote, backslash or `#` in it (for quoted
lists: no single quote in an element). -/
def Frag.BareOk (self : Ns) : Frag → Prop
  | .joinQ k => (self.getD k).items ≠ [] ∧ ∀ x ∈ (self.getD k).items, '\'' ∉ x
  | f => ∀ c ∈ f.render self, BareChar true c

/-- The text of a field can stand between double quotes: no double quote and no backslash in it (where
the writer escapes quotes: no backslash). -/
def Frag.QuotedOk (self : Ns) : Frag → Prop
  | .esc k => '\\' ∉ Frag.meant self (.esc k)
  | .team k => '\\' ∉ Frag.meant self (.team k)
  | f => ∀ c ∈ f.render self, c ≠ '"' ∧ c ≠ '\\'

/-- The symbol can stand where it is. -/
def symSafe (self : Ns) : SymSt → Sym → Prop
  | .space, .fr f => f.BareOk self ∧ f.render self ≠ []
  | .word _, .fr f => f.BareOk self
  | .quote q _, .fr f => if q = '"' then f.QuotedOk self else '\'' ∉ f.render self
  | _, _ => True

/-- All symbols can stand where they are. -/
def SafeSyms (self : Ns) : SymSt → List Sym → Prop
  | _, [] => True
  | st, s :: t => symSafe self st s ∧ match symStep st s with
    | some (_, st) => SafeSyms self st t
    | none => True

instance (self : Ns) (f : Frag) : Decidable (f.BareOk self) := by
  cases f <;> (simp only [Frag.BareOk, BareChar]; infer_instance)
instance (self : Ns) (f : Frag) : Decidable (f.QuotedOk self) := by
  cases f <;> (simp only [Frag.QuotedOk]; infer_instance)
instance (self : Ns) (st : SymSt) (s : Sym) : Decidable (symSafe self st s) := by
  cases st <;> cases s <;> (simp only [symSafe]; infer_instance)
def SafeSyms.dec (self : Ns) : (st : SymSt) → (l : List Sym) → Decidable (SafeSyms self st l)
  | _, [] => .isTrue trivial
  | st, s :: t => by
    simp only [SafeSyms]
    have : Decidable (match symStep st s with
      | some (_, st) => SafeSyms self st t
      | none => True) := by
      split
      · exact SafeSyms.dec self _ t
      · exact .isTrue trivial
    infer_instance
instance (self : Ns) (st : SymSt) (l : List Sym) : Decidable (SafeSyms self st l) := SafeSyms.dec self st l

/-- The state of the lexer. -/
def SymSt.st : SymSt → LexState
  | .space => .space
  | .comment => .comment
  | .word _ => .word
  | .quote q _ => .quote q

/-- The token so far. -/
def SymSt.tok (self : Ns) : SymSt → Str
  | .word w => wordOf self w
  | .quote _ w => wordOf self w
  | _ => []

theorem wordOf_append (self : Ns) (a b : List Sym) : wordOf self (a ++ b) = wordOf self a ++ wordOf self b := by
  simp [wordOf]

theorem exc_map_id {ε α : Type} (x : Except ε α) : x.map (fun y => y) = x := by cases x <;> rfl
theorem exc_map_map {ε α β γ : Type} (f : α → β) (g : β → γ) (x : Except ε α) : (x.map f).map g = x.map (fun y => g (f y)) := by
  cases x <;> rfl

theorem shlexGo_bare_word {t : Str} (h : ∀ c ∈ t, BareChar true c) (tok rest : Str) :
    shlexGo true .word tok (t ++ rest) = shlexGo true .word (tok ++ t) rest := by
  induction t generalizing tok with
  | nil => simp
  | cons c t ih =>
    have := shlexGo_seg_word true (.bare c) tok (t ++ rest) (h c (by simp))
    simp only [Seg.render, Seg.text, List.cons_append, List.nil_append] at this
    rw [List.cons_append, this, ih (fun c hc => h c (by simp [hc]))]
    simp

theorem shlexGo_bare_space {t : Str} (h : ∀ c ∈ t, BareChar true c) (hne : t ≠ []) (tok rest : Str) :
    shlexGo true .space tok (t ++ rest) = shlexGo true .word t rest := by
  cases t with
  | nil => exact absurd rfl hne
  | cons c t =>
    obtain ⟨h1, h2, h3, h4⟩ := h c (by simp)
    have e3 : (c == '\\') = false := by simpa using h3
    have e4 : (true && c == '#') = false := by simpa using h4 rfl
    rw [List.cons_append, shlexGo]
    simp only [h1, h2, e3, e4, Bool.false_eq_true, if_false]
    rw [shlexGo_bare_word (fun c hc => h c (by simp [hc]))]
    rfl

theorem shlexGo_quoted_single (x tok rest : Str) (h : '\'' ∉ x) :
    shlexGo true .word tok ((c!"'" ++ x ++ c!"'") ++ rest) = shlexGo true .word (tok ++ x) rest := by
  have := shlexGo_seg_word true (.single x) tok rest h
  simpa [Seg.render, Seg.text] using this

theorem shlexGo_joinQ {l : List Str} (h : ∀ x ∈ l, '\'' ∉ x) (tok rest : Str) :
    shlexGo true .word tok (joinWith c!"," (l.map fun x => c!"'" ++ x ++ c!"'") ++ rest) =
      shlexGo true .word (tok ++ joinWith c!"," l) rest := by
  induction l generalizing tok with
  | nil => simp [joinWith]
  | cons x t ih =>
    have hx := h x (by simp)
    have ht : ∀ x ∈ t, '\'' ∉ x := fun y hy => h y (by simp [hy])
    cases t with
    | nil =>
      simp only [List.map_cons, List.map_nil, joinWith]
      exact shlexGo_quoted_single x tok rest hx
    | cons y t =>
      have e1 : joinWith c!"," (List.map (fun x => c!"'" ++ x ++ c!"'") (x :: y :: t)) =
          (c!"'" ++ x ++ c!"'") ++ (c!"," ++ joinWith c!"," (List.map (fun x => c!"'" ++ x ++ c!"'") (y :: t))) := by
        simp [joinWith]
      have e2 : joinWith c!"," (x :: y :: t) = x ++ (c!"," ++ joinWith c!"," (y :: t)) := by simp [joinWith]
      rw [e1, e2, List.append_assoc, shlexGo_quoted_single x tok _ hx, List.append_assoc,
        shlexGo_bare_word (t := c!",") (by simp [BareChar, shWhite, shQuote]), ih ht]
      simp

theorem shlexGo_space_quote {q : Char} (hq : shQuote q = true) (tok rest : Str) :
    shlexGo true .space tok (q :: rest) = shlexGo true .word [] (q :: rest) := by
  have : q = '\'' ∨ q = '"' := by simpa [shQuote] using hq
  rcases this with rfl | rfl <;> simp [shlexGo, shWhite, shQuote]

theorem shlexGo_dq {t : Str} (h : ∀ c ∈ t, c ≠ '"' ∧ c ≠ '\\') (tok rest : Str) :
    shlexGo true (.quote '"') tok (t ++ rest) = shlexGo true (.quote '"') (tok ++ t) rest := by
  induction t generalizing tok with
  | nil => simp
  | cons c t ih =>
    obtain ⟨h1, h2⟩ := h c (by simp)
    have e1 : (c == '"') = false := by simpa using h1
    have e2 : (c == '\\') = false := by simpa using h2
    rw [List.cons_append, shlexGo]
    simp only [e1, e2, Bool.false_and, Bool.false_eq_true, if_false]
    rw [ih (fun c hc => h c (by simp [hc]))]
    simp

theorem shlexGo_dq_esc {t : Str} (h : '\\' ∉ t) (tok rest : Str) :
    shlexGo true (.quote '"') tok (escapeQuotes t ++ rest) = shlexGo true (.quote '"') (tok ++ t) rest := by
  induction t generalizing tok with
  | nil => simp [escapeQuotes]
  | cons c t ih =>
    simp only [List.mem_cons, not_or] at h
    by_cases hc : c = '"'
    · subst hc
      have : escapeQuotes ('"' :: t) = '\\' :: '"' :: escapeQuotes t := rfl
      rw [this, List.cons_append, List.cons_append, shlexGo]
      have e1 : ('\\' == '"') = false := by decide
      simp only [e1, Bool.false_eq_true, if_false, beq_self_eq_true, Bool.and_self, if_true]
      rw [shlexGo]
      simp only [bne_self_eq_false, Bool.and_false, Bool.false_eq_true, if_false]
      rw [ih h.2]
      simp
    · have : escapeQuotes (c :: t) = c :: escapeQuotes t := by simp [escapeQuotes, hc]
      have e1 : (c == '"') = false := by simpa using hc
      have e2 : (c == '\\') = false := by simpa using fun e : c = '\\' => h.1 e.symm
      rw [this, List.cons_append, shlexGo]
      simp only [e1, e2, Bool.false_and, Bool.false_eq_true, if_false]
      rw [ih h.2]
      simp

theorem shlexGo_sq {t : Str} (h : '\'' ∉ t) (tok rest : Str) :
    shlexGo true (.quote '\'') tok (t ++ rest) = shlexGo true (.quote '\'') (tok ++ t) rest := by
  induction t generalizing tok with
  | nil => simp
  | cons c t ih =>
    simp only [List.mem_cons, not_or] at h
    have e1 : (c == '\'') = false := by simpa using fun e : c = '\'' => h.1 e.symm
    have e2 : (('\'' : Char) == '"') = false := by decide
    rw [List.cons_append, shlexGo]
    simp only [e1, e2, Bool.and_false, Bool.false_eq_true, if_false]
    rw [ih h.2]
    simp

/-- A field outside quotes. -/
theorem bare_field {self : Ns} {f : Frag} (hb : f.bareable = true) (h : f.BareOk self) (tok rest : Str) :
    shlexGo true .word tok (f.render self ++ rest) = shlexGo true .word (tok ++ f.meant self) rest := by
  cases f with
  | joinQ k => exact shlexGo_joinQ h.2 tok rest
  | fld k => exact shlexGo_bare_word h tok rest
  | low k => exact shlexGo_bare_word h tok rest
  | up k => exact shlexGo_bare_word h tok rest
  | join s k => exact shlexGo_bare_word h tok rest
  | _ => simp [Frag.bareable] at hb

theorem bare_field_space {self : Ns} {f : Frag} (hb : f.bareable = true) (h : f.BareOk self) (hne : f.render self ≠ []) (rest : Str) :
    shlexGo true .space [] (f.render self ++ rest) = shlexGo true .word (f.meant self) rest := by
  cases f with
  | joinQ k =>
    obtain ⟨h1, h2⟩ := h
    have : ∃ r, Frag.render self (.joinQ k) = '\'' :: r := by
      simp only [Frag.render]
      match hl : (self.getD k).items with
      | [] => exact absurd hl h1
      | [x] => exact ⟨_, rfl⟩
      | x :: y :: t => exact ⟨_, rfl⟩
    obtain ⟨r, hr⟩ := this
    rw [hr, List.cons_append, shlexGo_space_quote (by decide), ← List.cons_append, ← hr]
    exact shlexGo_joinQ h2 [] rest
  | fld k => exact shlexGo_bare_space h hne [] rest
  | low k => exact shlexGo_bare_space h hne [] rest
  | up k => exact shlexGo_bare_space h hne [] rest
  | join s k => exact shlexGo_bare_space h hne [] rest
  | _ => simp [Frag.bareable] at hb

/-- A field between double quotes. -/
theorem quoted_field {self : Ns} {f : Frag} (hb : f.quotable = true) (h : f.QuotedOk self) (tok rest : Str) :
    shlexGo true (.quote '"') tok (f.render self ++ rest) = shlexGo true (.quote '"') (tok ++ f.meant self) rest := by
  cases f with
  | fld k => exact shlexGo_dq h tok rest
  | low k => exact shlexGo_dq h tok rest
  | up k => exact shlexGo_dq h tok rest
  | join s k => exact shlexGo_dq h tok rest
  | esc k => exact shlexGo_dq_esc h tok rest
  | team k => exact shlexGo_dq_esc h tok rest
  | _ => simp [Frag.quotable] at hb

/-- States that the symbolic lexer gets into. -/
def SymSt.Good : SymSt → Prop
  | .quote q _ => shQuote q = true
  | _ => True

theorem symStep_good {st st' : SymSt} {s : Sym} {ws : List (List Sym)} (hg : st.Good) (h : symStep st s = some (ws, st')) : st'.Good := by
  cases st <;> cases s <;> simp only [symStep] at h <;> (repeat' split at h) <;>
    simp only [reduceCtorEq, Option.some.injEq, Prod.mk.injEq] at h <;>
    obtain ⟨_, rfl⟩ := h <;> first | trivial | assumption

theorem symStep_sound {self : Ns} {st st' : SymSt} {s : Sym} {ws : List (List Sym)} (hg : st.Good) (h : symStep st s = some (ws, st'))
    (hs : symSafe self st s) (rest : Str) :
    shlexGo true st.st (st.tok self) (s.render self ++ rest) =
      (shlexGo true st'.st (st'.tok self) rest).map (ws.map (wordOf self) ++ ·) := by
  cases s with
  | ch c =>
    simp only [Sym.render, List.cons_append, List.nil_append]
    cases st with
    | space =>
      simp only [symStep] at h
      simp only [SymSt.st, SymSt.tok]
      rw [shlexGo]
      by_cases h1 : shWhite c = true
      · simp only [h1, if_true] at h ⊢
        simp only [Option.some.injEq, Prod.mk.injEq] at h
        obtain ⟨rfl, rfl⟩ := h
        simp [exc_map_id, SymSt.st, SymSt.tok]
      · simp only [Bool.not_eq_true] at h1
        simp only [h1, Bool.false_eq_true, if_false, Bool.true_and] at h ⊢
        by_cases h2 : (c == '#') = true
        · simp only [h2, if_true] at h ⊢
          simp only [Option.some.injEq, Prod.mk.injEq] at h
          obtain ⟨rfl, rfl⟩ := h
          simp [exc_map_id, SymSt.st, SymSt.tok]
        · simp only [Bool.not_eq_true] at h2
          simp only [h2, Bool.false_eq_true, if_false] at h ⊢
          by_cases h3 : (c == '\\') = true
          · simp [h3] at h
          · simp only [Bool.not_eq_true] at h3
            simp only [h3, Bool.false_eq_true, if_false] at h ⊢
            by_cases h4 : shQuote c = true
            · simp only [h4, if_true] at h ⊢
              simp only [Option.some.injEq, Prod.mk.injEq] at h
              obtain ⟨rfl, rfl⟩ := h
              simp [exc_map_id, SymSt.st, SymSt.tok, wordOf]
            · simp only [Bool.not_eq_true] at h4
              simp only [h4, Bool.false_eq_true, if_false] at h ⊢
              simp only [Option.some.injEq, Prod.mk.injEq] at h
              obtain ⟨rfl, rfl⟩ := h
              simp [exc_map_id, SymSt.st, SymSt.tok, wordOf, Sym.meant]
    | comment =>
      simp only [symStep] at h
      simp only [SymSt.st, SymSt.tok]
      rw [shlexGo]
      by_cases h1 : (c == '\n') = true
      · simp only [h1, if_true] at h ⊢
        simp only [Option.some.injEq, Prod.mk.injEq] at h
        obtain ⟨rfl, rfl⟩ := h
        simp [exc_map_id, SymSt.st, SymSt.tok]
      · simp only [Bool.not_eq_true] at h1
        simp only [h1, Bool.false_eq_true, if_false] at h ⊢
        simp only [Option.some.injEq, Prod.mk.injEq] at h
        obtain ⟨rfl, rfl⟩ := h
        simp [exc_map_id, SymSt.st, SymSt.tok]
    | word w =>
      simp only [symStep] at h
      simp only [SymSt.st, SymSt.tok]
      rw [shlexGo]
      by_cases h1 : shWhite c = true
      · simp only [h1, if_true] at h ⊢
        simp only [Option.some.injEq, Prod.mk.injEq] at h
        obtain ⟨rfl, rfl⟩ := h
        rfl
      · simp only [Bool.not_eq_true] at h1
        simp only [h1, Bool.false_eq_true, if_false, Bool.true_and] at h ⊢
        by_cases h2 : (c == '#') = true
        · simp only [h2, if_true] at h ⊢
          simp only [Option.some.injEq, Prod.mk.injEq] at h
          obtain ⟨rfl, rfl⟩ := h
          rfl
        · simp only [Bool.not_eq_true] at h2
          simp only [h2, Bool.false_eq_true, if_false] at h ⊢
          by_cases h4 : shQuote c = true
          · simp only [h4, if_true] at h ⊢
            simp only [Option.some.injEq, Prod.mk.injEq] at h
            obtain ⟨rfl, rfl⟩ := h
            simp [exc_map_id, SymSt.st, SymSt.tok]
          · simp only [Bool.not_eq_true] at h4
            simp only [h4, Bool.false_eq_true, if_false] at h ⊢
            by_cases h3 : (c == '\\') = true
            · simp [h3] at h
            · simp only [Bool.not_eq_true] at h3
              simp only [h3, Bool.false_eq_true, if_false] at h ⊢
              simp only [Option.some.injEq, Prod.mk.injEq] at h
              obtain ⟨rfl, rfl⟩ := h
              simp [exc_map_id, SymSt.st, SymSt.tok, wordOf, Sym.meant]
    | quote q w =>
      simp only [symStep] at h
      simp only [SymSt.st, SymSt.tok]
      rw [shlexGo]
      by_cases h1 : (c == q) = true
      · simp only [h1, if_true] at h ⊢
        simp only [Option.some.injEq, Prod.mk.injEq] at h
        obtain ⟨rfl, rfl⟩ := h
        simp [exc_map_id, SymSt.st, SymSt.tok]
      · simp only [Bool.not_eq_true] at h1
        simp only [h1, Bool.false_eq_true, if_false] at h ⊢
        by_cases h3 : (c == '\\') = true
        · simp [h3] at h
        · simp only [Bool.not_eq_true] at h3
          simp only [h3, Bool.false_and, Bool.false_eq_true, if_false] at h ⊢
          simp only [Option.some.injEq, Prod.mk.injEq] at h
          obtain ⟨rfl, rfl⟩ := h
          simp [exc_map_id, SymSt.st, SymSt.tok, wordOf, Sym.meant]
  | fr f =>
    simp only [Sym.render]
    cases st with
    | space =>
      simp only [symStep] at h
      split at h
      · rename_i hb
        simp only [Option.some.injEq, Prod.mk.injEq] at h
        obtain ⟨rfl, rfl⟩ := h
        have := bare_field_space hb hs.1 hs.2 rest
        simpa [exc_map_id, SymSt.st, SymSt.tok, wordOf, Sym.meant] using this
      · cases h
    | comment => simp [symStep] at h
    | word w =>
      simp only [symStep] at h
      split at h
      · rename_i hb
        simp only [Option.some.injEq, Prod.mk.injEq] at h
        obtain ⟨rfl, rfl⟩ := h
        have := bare_field hb hs (wordOf self w) rest
        simpa [exc_map_id, SymSt.st, SymSt.tok, wordOf, Sym.meant] using this
      · cases h
    | quote q w =>
      simp only [symStep] at h
      split at h
      · rename_i hb
        simp only [Option.some.injEq, Prod.mk.injEq] at h
        obtain ⟨rfl, rfl⟩ := h
        simp only [Bool.and_eq_true, Bool.or_eq_true] at hb
        simp only [symSafe] at hs
        by_cases hq : q = '"'
        · subst hq
          rw [if_pos rfl] at hs
          have := quoted_field hb.1 hs (wordOf self w) rest
          simpa [exc_map_id, SymSt.st, SymSt.tok, wordOf, Sym.meant] using this
        · rw [if_neg hq] at hs
          have hq' : q = '\'' := by
            have : q = '\'' ∨ q = '"' := by simpa [SymSt.Good, shQuote] using hg
            exact this.resolve_right hq
          subst hq'
          cases f with
          | fld k =>
            have := shlexGo_sq hs (wordOf self w) rest
            simpa [exc_map_id, SymSt.st, SymSt.tok, wordOf, Sym.meant, Frag.meant] using this
          | _ => simp [Frag.isFld] at hb
      · cases h

theorem symGo_good {l : List Sym} {st st' : SymSt} {ws : List (List Sym)} (hg : st.Good) (h : symGo st l = some (ws, st')) : st'.Good := by
  induction l generalizing st ws with
  | nil => simp only [symGo, Option.some.injEq, Prod.mk.injEq] at h; rw [← h.2]; exact hg
  | cons s t ih =>
    simp only [symGo] at h
    split at h
    · cases h
    · rename_i ws1 st1 h1
      split at h
      · cases h
      · rename_i ws2 st2 h2
        simp only [Option.some.injEq, Prod.mk.injEq] at h
        obtain ⟨_, rfl⟩ := h
        exact ih (symStep_good hg h1) h2

theorem symGo_sound {self : Ns} {l : List Sym} {st st' : SymSt} {ws : List (List Sym)} (hg : st.Good) (h : symGo st l = some (ws, st'))
    (hs : SafeSyms self st l) (rest : Str) :
    shlexGo true st.st (st.tok self) ((l.map (Sym.render self)).flatten ++ rest) =
      (shlexGo true st'.st (st'.tok self) rest).map (ws.map (wordOf self) ++ ·) := by
  induction l generalizing st ws with
  | nil =>
    simp only [symGo, Option.some.injEq, Prod.mk.injEq] at h
    obtain ⟨rfl, rfl⟩ := h
    simp [exc_map_id]
  | cons s t ih =>
    simp only [symGo] at h
    split at h
    · cases h
    · rename_i ws1 st1 h1
      split at h
      · cases h
      · rename_i ws2 st2 h2
        simp only [Option.some.injEq, Prod.mk.injEq] at h
        obtain ⟨rfl, rfl⟩ := h
        simp only [SafeSyms, h1] at hs
        rw [List.map_cons, List.flatten_cons, List.append_assoc, symStep_sound hg h1 hs.1, ih (symStep_good hg h1) h2 hs.2,
          exc_map_map]
        simp

theorem symsOf_render (self : Ns) (fs : List Frag) : ((symsOf fs).map (Sym.render self)).flatten = (fs.map (Frag.render self)).flatten := by
  induction fs with
  | nil => rfl
  | cons f t ih =>
    cases f <;> simp [symsOf, Sym.render, ih, Frag.render]
    rename_i s
    have : ∀ (l : Str), (List.map (Sym.render self ∘ Sym.ch) l).flatten = l := by
      intro l; induction l <;> simp_all [Sym.render]
    exact this s

/-- A field of the piece can stand where it is. -/
def PieceSafe (self : Ns) (fs : List Frag) : Prop := SafeSyms self .space (symsOf fs)

/-- Every piece that is written is safe. -/
def Out.Safe (o : Out) (self : Ns) : Prop := ∀ x ∈ o, x.1.eval self = true → PieceSafe self x.2

instance (o : Out) (self : Ns) : Decidable (o.Safe self) := by unfold Out.Safe PieceSafe; infer_instance

/-- The lexer after some text: between words or in a word, which is the last one. -/
inductive Between (self : Ns) : Bool → LexState → Str → List Str → Prop
  | space : Between self false .space [] []
  | word (w : Str) : Between self true .word w [w]

theorem eval_conj (self : Ns) (c : Cond) : c.eval self = true ↔ ∀ x ∈ c.conj, x.eval self = true := by
  induction c with
  | and a b iha ihb =>
    simp only [Cond.eval, Bool.and_eq_true, Cond.conj, List.mem_append, iha, ihb]
    constructor
    · rintro ⟨h1, h2⟩ x (hx | hx)
      · exact h1 x hx
      · exact h2 x hx
    · exact fun h => ⟨fun x hx => h x (.inl hx), fun x hx => h x (.inr hx)⟩
  | _ => simp [Cond.conj]

theorem clash_sound {self : Ns} {a b : Cond} (h : a.clash b = true) (ha : a.eval self = true) (hb : b.eval self = true) : False := by
  simp only [Cond.clash, List.any_eq_true] at h
  obtain ⟨x, hx, y, hy, h⟩ := h
  have hx' := (eval_conj self a).1 ha x hx
  have hy' := (eval_conj self b).1 hb y hy
  simp only [Bool.or_eq_true, beq_iff_eq] at h
  rcases h with rfl | rfl
  · simp [Cond.eval, hy'] at hx'
  · simp [Cond.eval, hx'] at hy'

/-- The words of the pieces that are written. -/
def firedWords (self : Ns) (l : List (Cond × List (List Sym))) : List Str :=
  l.flatMap fun x => if x.1.eval self then x.2.map (wordOf self) else []

theorem piece_sound {self : Ns} {fs : List Frag} {ws : List (List Sym)} {op : Bool} (h : pieceWords fs = some (ws, op))
    (hs : PieceSafe self fs) (rest : Str) :
    ∃ st tok last, Between self op st tok last ∧ (∃ init, ws.map (wordOf self) = init ++ last ∧
      shlexGo true .space [] ((fs.map (Frag.render self)).flatten ++ rest) = (shlexGo true st tok rest).map (init ++ ·)) := by
  unfold pieceWords at h
  split at h
  · rename_i ws1 h1
    simp only [Option.some.injEq, Prod.mk.injEq] at h
    obtain ⟨rfl, rfl⟩ := h
    have := symGo_sound (self := self) (st := .space) trivial h1 hs rest
    rw [symsOf_render] at this
    exact ⟨_, _, _, .space, _, (List.append_nil _).symm, this⟩
  · rename_i ws1 w h1
    simp only [Option.some.injEq, Prod.mk.injEq] at h
    obtain ⟨rfl, rfl⟩ := h
    have := symGo_sound (self := self) (st := .space) trivial h1 hs rest
    rw [symsOf_render] at this
    exact ⟨_, _, _, .word (wordOf self w), _, by simp, this⟩
  · cases h

/-- White space after a word ends the word. -/
theorem between_white {self : Ns} {op : Bool} {st : LexState} {tok : Str} {last : List Str} (hb : Between self op st tok last) {c : Char}
    (hc : shWhite c = true) (rest : Str) :
    shlexGo true st tok (c :: rest) = (shlexGo true .space [] (c :: rest)).map (last ++ ·) := by
  cases hb with
  | space => simp [exc_map_id]
  | word w =>
    rw [shlexGo, if_pos hc]
    rw [shlexGo, if_pos hc]
    rfl

theorem between_end {self : Ns} {op : Bool} {st : LexState} {tok : Str} {last : List Str} (hb : Between self op st tok last) :
    shlexGo true st tok [] = .ok last := by
  cases hb <;> rfl

theorem startsWhite_render {self : Ns} {fs : List Frag} (h : startsWhite fs = true) :
    ∃ c r, shWhite c = true ∧ (fs.map (Frag.render self)).flatten = c :: r := by
  unfold startsWhite at h
  rw [← symsOf_render]
  split at h
  · rename_i c r hc
    exact ⟨c, _, h, by rw [hc]; rfl⟩
  · cases h

theorem outWords_sound {self : Ns} {o : Out} {open' : List Cond} {l : List (Cond × List (List Sym))} (h : outWords open' o = some l)
    (hs : o.Safe self) {op : Bool} {st : LexState} {tok : Str} {last : List Str} (hb : Between self op st tok last)
    (ho : op = true → ∃ c ∈ open', c.eval self = true) :
    shlexGo true st tok (o.render self) = .ok (last ++ firedWords self l) := by
  induction o generalizing open' l op st tok last with
  | nil =>
    simp only [outWords, Option.some.injEq] at h
    subst h
    simp only [Out.render, List.map_nil, List.flatten_nil, firedWords, List.flatMap_nil, List.append_nil]
    exact between_end hb
  | cons x t ih =>
    obtain ⟨c, fs⟩ := x
    simp only [outWords] at h
    split at h
    · cases h
    · rename_i ws opened hp
      split at h
      · rename_i hcond
        split at h
        · cases h
        · rename_i r hr
          simp only [Option.some.injEq] at h
          subst h
          have hst : Out.Safe t self := fun x hx => hs x (by simp [hx])
          have er : Out.render ((c, fs) :: t) self = pieceText self (c, fs) ++ Out.render t self := by simp [Out.render]
          have ef : firedWords self ((c, ws) :: r) = (if c.eval self then ws.map (wordOf self) else []) ++ firedWords self r := by
            simp [firedWords]
          rw [er, ef]
          by_cases hc : c.eval self = true
          · rw [if_pos hc]
            have hpt : pieceText self (c, fs) = (fs.map (Frag.render self)).flatten := by simp [pieceText, hc]
            rw [hpt]
            by_cases hnil : symsOf fs = []
            · have hw : ws = [] ∧ opened = false := by
                unfold pieceWords at hp
                rw [hnil] at hp
                simp only [symGo, Option.some.injEq, Prod.mk.injEq] at hp
                exact ⟨hp.1.symm, hp.2.symm⟩
              have he : (fs.map (Frag.render self)).flatten = [] := by rw [← symsOf_render, hnil]; rfl
              rw [he, hw.1]
              simp only [List.nil_append, List.map_nil]
              rw [if_pos hnil] at hr
              exact ih hr hst hb ho
            · obtain ⟨st', tok', last', hb', init, hi, hgo⟩ := piece_sound (self := self) hp (hs (c, fs) (by simp) hc) (Out.render t self)
              have ho' : opened = true → ∃ c' ∈ (if symsOf fs = [] then open' else if opened then c :: open' else if c = .tt then [] else open'), c'.eval self = true := by
                intro h1
                rw [if_neg hnil, if_pos h1]
                exact ⟨c, by simp, hc⟩
              have hrest := ih hr hst hb' ho'
              have hgo' : shlexGo true .space [] ((fs.map (Frag.render self)).flatten ++ Out.render t self) = .ok (ws.map (wordOf self) ++ firedWords self r) := by
                rw [hgo, hrest, hi]
                simp [Except.map]
              by_cases hw : startsWhite fs = true
              · obtain ⟨ch, rr, hch, hre⟩ := startsWhite_render (self := self) hw
                rw [hre, List.cons_append] at hgo' ⊢
                rw [between_white hb hch, hgo']
                rfl
              · have hcl : open'.all (·.clash c) = true := by
                  simpa [hw, hnil] using hcond
                have hop : op = false := by
                  cases hop : op with
                  | false => rfl
                  | true =>
                    obtain ⟨c', hc', he'⟩ := ho hop
                    exact (clash_sound (List.all_eq_true.1 hcl c' hc') he' hc).elim
                subst hop
                cases hb
                rw [hgo']
                rfl
          · rw [if_neg hc]
            have hpt : pieceText self (c, fs) = [] := by simp [pieceText, hc]
            rw [hpt, List.nil_append, List.nil_append]
            refine ih hr hst hb ?_
            intro h1
            obtain ⟨c', hc', he'⟩ := ho h1
            have htt : c ≠ .tt := by rintro rfl; exact hc rfl
            refine ⟨c', ?_, he'⟩
            split
            · exact hc'
            · split
              · exact List.mem_cons_of_mem _ hc'
              · exact hc'
      · cases h

/-- The words of the text of a template. -/
theorem template_words {self : Ns} {o : Out} {l : List (Cond × List (List Sym))} (h : outWords [] o = some l) (hs : o.Safe self) :
    shlexSplit (o.render self) true = .ok (firedWords self l) := by
  have := outWords_sound h hs (Between.space (self := self)) (by simp)
  simpa [shlexSplit] using this

end Ks
