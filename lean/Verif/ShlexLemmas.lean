import Verif.Shlex
import Verif.PyStrLemmas
/-!
# Shell-quoted text: grammar and tokenizer lemmas
-/
namespace Ks

/-- Items inside double quotes. -/
inductive DItem
  /-- a character standing for itself (not `"`, not a backslash) -/
  | plain (c : Char)
  /-- `\"` or `\\` -/
  | esc (c : Char)
  /-- a backslash before any other character: both are kept -/
  | keep (c : Char)
  deriving DecidableEq, Repr

/-- Segments of a shell word. -/
inductive Seg
  /-- an unquoted character -/
  | bare (c : Char)
  /-- a backslash and a character -/
  | esc (c : Char)
  /-- `'...'` -/
  | single (s : Str)
  /-- `"..."` -/
  | dbl (s : List DItem)
  deriving DecidableEq, Repr

def DItem.render : DItem → Str
  | .plain c => [c]
  | .esc c => ['\\', c]
  | .keep c => ['\\', c]

def DItem.text : DItem → Str
  | .plain c => [c]
  | .esc c => [c]
  | .keep c => ['\\', c]

def DItem.Ok : DItem → Prop
  | .plain c => c ≠ '"' ∧ c ≠ '\\'
  | .esc c => c = '"' ∨ c = '\\'
  | .keep c => c ≠ '"' ∧ c ≠ '\\'

/-- The characters written. -/
def Seg.render : Seg → Str
  | .bare c => [c]
  | .esc c => ['\\', c]
  | .single s => ['\''] ++ s ++ ['\'']
  | .dbl s => ['"'] ++ (s.map DItem.render).flatten ++ ['"']

/-- The characters meant. -/
def Seg.text : Seg → Str
  | .bare c => [c]
  | .esc c => [c]
  | .single s => s
  | .dbl s => (s.map DItem.text).flatten

/-- A character that needs no quoting (with `#` as comment character if `comments`). -/
def BareChar (comments : Bool) (c : Char) : Prop :=
  shWhite c = false ∧ shQuote c = false ∧ c ≠ '\\' ∧ (comments = true → c ≠ '#')

def Seg.Ok (comments : Bool) : Seg → Prop
  | .bare c => BareChar comments c
  | .esc _ => True
  | .single s => '\'' ∉ s
  | .dbl s => ∀ i ∈ s, i.Ok

/-- A shell word: a non-empty sequence of segments. -/
abbrev Word := List Seg

def Word.render (w : Word) : Str := (w.map Seg.render).flatten
def Word.text (w : Word) : Str := (w.map Seg.text).flatten
def Word.Ok (comments : Bool) (w : Word) : Prop := w ≠ [] ∧ ∀ s ∈ w, s.Ok comments

theorem shlexGo_single (cm : Bool) (s tok rest : Str) (h : '\'' ∉ s) :
    shlexGo cm (.quote '\'') tok (s ++ '\'' :: rest) = shlexGo cm .word (tok ++ s) rest := by
  induction s generalizing tok with
  | nil => simp [shlexGo]
  | cons c t ih =>
    simp only [List.mem_cons, not_or] at h
    have hc : (c == '\'') = false := by simpa using fun e => h.1 e.symm
    have h2 : (('\'' : Char) == '"') = false := by decide
    rw [List.cons_append, shlexGo]
    simp only [hc, h2, Bool.and_false, Bool.false_eq_true, if_false]
    rw [ih _ h.2]
    simp

theorem shlexGo_dbl (cm : Bool) (s : List DItem) (tok rest : Str) (h : ∀ i ∈ s, i.Ok) :
    shlexGo cm (.quote '"') tok ((s.map DItem.render).flatten ++ '"' :: rest) =
      shlexGo cm .word (tok ++ (s.map DItem.text).flatten) rest := by
  induction s generalizing tok with
  | nil => simp [shlexGo]
  | cons i t ih =>
    have hi := h i (by simp)
    have ht : ∀ i ∈ t, i.Ok := fun j hj => h j (by simp [hj])
    cases i with
    | plain c =>
      obtain ⟨h1, h2⟩ := hi
      have e1 : (c == '"') = false := by simpa using h1
      have e2 : (c == '\\') = false := by simpa using h2
      simp only [List.map_cons, DItem.render, List.flatten_cons, List.cons_append, List.nil_append, shlexGo, e1,
        e2, Bool.false_and, Bool.false_eq_true, if_false]
      rw [ih _ ht]
      simp [DItem.text]
    | esc c =>
      have e1 : ('\\' == '"') = false := by decide
      simp only [List.map_cons, DItem.render, List.flatten_cons, List.cons_append, List.nil_append, shlexGo, e1,
        Bool.false_eq_true, if_false, beq_self_eq_true, Bool.and_self, if_true]
      have e2 : (c != '\\' && c != '"') = false := by
        rcases hi with rfl | rfl <;> decide
      simp only [e2, Bool.false_eq_true, if_false]
      rw [ih _ ht]
      simp [DItem.text]
    | keep c =>
      obtain ⟨h1, h2⟩ := hi
      have e1 : ('\\' == '"') = false := by decide
      simp only [List.map_cons, DItem.render, List.flatten_cons, List.cons_append, List.nil_append, shlexGo, e1,
        Bool.false_eq_true, if_false, beq_self_eq_true, Bool.and_self, if_true]
      have e2 : (c != '\\' && c != '"') = true := by simp [h1, h2]
      simp only [e2, if_true]
      rw [ih _ ht]
      simp [DItem.text]

/-- In the middle of a word a segment adds its text to the token. -/
theorem shlexGo_seg_word (cm : Bool) (g : Seg) (tok rest : Str) (h : g.Ok cm) :
    shlexGo cm .word tok (g.render ++ rest) = shlexGo cm .word (tok ++ g.text) rest := by
  cases g with
  | bare c =>
    obtain ⟨h1, h2, h3, h4⟩ := h
    have e3 : (c == '\\') = false := by simpa using h3
    have e4 : (cm && c == '#') = false := by
      cases cm
      · rfl
      · simpa using h4 rfl
    simp only [Seg.render, Seg.text, List.cons_append, List.nil_append, shlexGo, h1, h2, e3, e4, Bool.false_eq_true, if_false]
  | esc c =>
    have e1 : shWhite '\\' = false := by decide
    have e2 : shQuote '\\' = false := by decide
    have e3 : (cm && '\\' == '#') = false := by cases cm <;> decide
    simp only [Seg.render, Seg.text, List.cons_append, List.nil_append, shlexGo, e1, e2, e3, Bool.false_eq_true, if_false,
      beq_self_eq_true, if_true]
  | single s =>
    have e1 : shWhite '\'' = false := by decide
    have e2 : shQuote '\'' = true := by decide
    have e3 : (cm && '\'' == '#') = false := by cases cm <;> decide
    simp only [Seg.render, Seg.text, List.cons_append, List.nil_append, List.append_assoc, shlexGo, e1, e2, e3,
      Bool.false_eq_true, if_false, if_true]
    exact shlexGo_single cm s tok rest h
  | dbl s =>
    have e1 : shWhite '"' = false := by decide
    have e2 : shQuote '"' = true := by decide
    have e3 : (cm && '"' == '#') = false := by cases cm <;> decide
    simp only [Seg.render, Seg.text, List.cons_append, List.nil_append, List.append_assoc, shlexGo, e1, e2, e3,
      Bool.false_eq_true, if_false, if_true]
    exact shlexGo_dbl cm s tok rest h

/-- Between words a segment starts a new token. -/
theorem shlexGo_seg_space (cm : Bool) (g : Seg) (tok rest : Str) (h : g.Ok cm) :
    shlexGo cm .space tok (g.render ++ rest) = shlexGo cm .word g.text rest := by
  cases g with
  | bare c =>
    obtain ⟨h1, h2, h3, h4⟩ := h
    have e3 : (c == '\\') = false := by simpa using h3
    have e4 : (cm && c == '#') = false := by
      cases cm
      · rfl
      · simpa using h4 rfl
    simp only [Seg.render, Seg.text, List.cons_append, List.nil_append, shlexGo, h1, h2, e3, e4, Bool.false_eq_true, if_false]
  | esc c =>
    have e1 : shWhite '\\' = false := by decide
    have e2 : shQuote '\\' = false := by decide
    have e3 : (cm && '\\' == '#') = false := by cases cm <;> decide
    simp only [Seg.render, Seg.text, List.cons_append, List.nil_append, shlexGo, e1, e3, Bool.false_eq_true, if_false,
      beq_self_eq_true, if_true]
  | single s =>
    have e1 : shWhite '\'' = false := by decide
    have e2 : shQuote '\'' = true := by decide
    have e3 : (cm && '\'' == '#') = false := by cases cm <;> decide
    have e4 : ('\'' == '\\') = false := by decide
    simp only [Seg.render, Seg.text, List.cons_append, List.nil_append, List.append_assoc, shlexGo, e1, e2, e3, e4,
      Bool.false_eq_true, if_false, if_true]
    exact shlexGo_single cm s [] rest h
  | dbl s =>
    have e1 : shWhite '"' = false := by decide
    have e2 : shQuote '"' = true := by decide
    have e3 : (cm && '"' == '#') = false := by cases cm <;> decide
    have e4 : ('"' == '\\') = false := by decide
    simp only [Seg.render, Seg.text, List.cons_append, List.nil_append, List.append_assoc, shlexGo, e1, e2, e3, e4,
      Bool.false_eq_true, if_false, if_true]
    exact shlexGo_dbl cm s [] rest h

theorem shlexGo_segs_word (cm : Bool) (w : List Seg) (tok rest : Str) (h : ∀ s ∈ w, s.Ok cm) :
    shlexGo cm .word tok (Word.render w ++ rest) = shlexGo cm .word (tok ++ Word.text w) rest := by
  induction w generalizing tok with
  | nil => simp [Word.render, Word.text]
  | cons g t ih =>
    have : Word.render (g :: t) ++ rest = g.render ++ (Word.render t ++ rest) := by simp [Word.render]
    rw [this, shlexGo_seg_word cm g tok _ (h g (by simp)), ih _ (fun s hs => h s (by simp [hs]))]
    simp [Word.text]

/-- A whole word read from the blank state. -/
theorem shlexGo_word (cm : Bool) (w : Word) (tok rest : Str) (h : w.Ok cm) :
    shlexGo cm .space tok (w.render ++ rest) = shlexGo cm .word w.text rest := by
  obtain ⟨hne, h⟩ := h
  cases w with
  | nil => exact absurd rfl hne
  | cons g t =>
    have : Word.render (g :: t) ++ rest = g.render ++ (Word.render t ++ rest) := by simp [Word.render]
    rw [this, shlexGo_seg_space cm g tok _ (h g (by simp)),
      shlexGo_segs_word cm t _ _ (fun s hs => h s (by simp [hs]))]
    simp [Word.text]

theorem shlexGo_blanks (cm : Bool) (b tok rest : Str) (h : ∀ c ∈ b, shWhite c = true) :
    shlexGo cm .space tok (b ++ rest) = shlexGo cm .space (if b = [] then tok else []) rest := by
  induction b generalizing tok with
  | nil => rfl
  | cons c t ih =>
    rw [List.cons_append, shlexGo]
    simp only [h c (by simp), if_true]
    rw [ih _ (fun d hd => h d (by simp [hd]))]
    split <;> simp

/-- A word followed by blanks. -/
theorem shlexGo_word_blank (cm : Bool) (b tok rest : Str) (hb : b ≠ []) (h : ∀ c ∈ b, shWhite c = true) :
    shlexGo cm .word tok (b ++ rest) = (shlexGo cm .space [] rest).map (tok :: ·) := by
  cases b with
  | nil => exact absurd rfl hb
  | cons c t =>
    rw [List.cons_append, shlexGo]
    simp only [h c (by simp), if_true]
    rw [shlexGo_blanks cm t [] rest (fun d hd => h d (by simp [hd]))]
    simp

/-- Words separated by single blanks, with trailing blanks. -/
theorem shlexSplit_words (cm : Bool) (ws : List Word) (tail : Str) (h : ∀ w ∈ ws, w.Ok cm)
    (ht : ∀ c ∈ tail, shWhite c = true) :
    shlexGo cm .space [] (joinWith c!" " (ws.map Word.render) ++ tail) = .ok (ws.map Word.text) := by
  induction ws with
  | nil =>
    have := shlexGo_blanks cm tail [] [] ht
    rw [List.append_nil] at this
    simp only [List.map_nil, joinWith, List.nil_append]
    rw [this]
    simp [shlexGo]
  | cons w t ih =>
    have ht' := ih (fun x hx => h x (by simp [hx]))
    cases t with
    | nil =>
      simp only [List.map_cons, List.map_nil, joinWith]
      rw [shlexGo_word cm w [] _ (h w (by simp))]
      by_cases hb : tail = []
      · subst hb; rfl
      · have := shlexGo_word_blank cm tail w.text [] hb ht
        rw [List.append_nil] at this
        rw [this]; rfl
    | cons w2 t2 =>
      simp only [List.map_cons, joinWith, List.append_assoc] at ht' ⊢
      rw [shlexGo_word cm w [] _ (h w (by simp))]
      rw [shlexGo_word_blank cm c!" " _ _ (by simp) (by decide), ht']
      rfl

theorem word_bare_ok {cm : Bool} {s : Str} (hne : s ≠ []) (h : ∀ c ∈ s, BareChar cm c) :
    Word.Ok cm (s.map Seg.bare) := by
  refine ⟨by simpa using hne, ?_⟩
  intro g hg
  obtain ⟨c, hc, rfl⟩ := List.mem_map.1 hg
  exact h c hc

@[simp] theorem word_bare_render (s : Str) : Word.render (s.map Seg.bare) = s := by
  induction s with
  | nil => rfl
  | cons c t ih => simp only [Word.render, List.map_cons, List.flatten_cons, Seg.render] at ih ⊢; rw [ih]; rfl

@[simp] theorem word_bare_text (s : Str) : Word.text (s.map Seg.bare) = s := by
  induction s with
  | nil => rfl
  | cons c t ih => simp only [Word.text, List.map_cons, List.flatten_cons, Seg.text] at ih ⊢; rw [ih]; rfl

end Ks
