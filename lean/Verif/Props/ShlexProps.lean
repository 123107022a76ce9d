import Verif.ShlexLemmas
/-!
# C08, C09: the line tokenizer (`/repo/pykickstart/parser.py:653,745`)
-/
namespace Ks

/-! ## Specification of shell quoting

`quoteArg` is the usual shell quoting of one argument: safe text as it is, everything else in
single quotes with each single quote written `'"'"'` (Python's `shlex.quote`). -/

/-- Characters never needing quotes. -/
def safeChar (c : Char) : Bool :=
  c.isAlphanum || c == '_' || c == '@' || c == '%' || c == '+' || c == '=' || c == ':' || c == ',' ||
  c == '.' || c == '/' || c == '-'

/-- Shell-quoted form of one argument. -/
def quoteArg (s : Str) : Str :=
  if s = [] then c!"''"
  else if s.all safeChar then s
  else c!"'" ++ (s.map fun c => if c = '\'' then c!"'\"'\"'" else [c]).flatten ++ c!"'"

/-! ## C08 -/

/-- C08, general form: any rendering of the arguments with bare characters, backslash escapes,
single quotes and double quotes (in any mixture), separated by blanks, is tokenized to the
arguments. -/
theorem C08_words (comments : Bool) (ws : List Word) (lead tail : Str) (h : ∀ w ∈ ws, w.Ok comments)
    (hl : ∀ c ∈ lead, shWhite c = true) (ht : ∀ c ∈ tail, shWhite c = true) :
    shlexSplit (lead ++ joinWith c!" " (ws.map Word.render) ++ tail) comments = .ok (ws.map Word.text) := by
  unfold shlexSplit
  rw [List.append_assoc, shlexGo_blanks comments lead [] _ hl]
  have : (if lead = [] then ([] : Str) else []) = [] := by split <;> rfl
  rw [this]
  exact shlexSplit_words comments ws tail h ht

theorem safe_bare (c : Char) (h : safeChar c = true) (cm : Bool) : BareChar cm c := by
  refine ⟨?_, ?_, ?_, ?_⟩
  · cases hw : shWhite c with
    | false => rfl
    | true =>
      exfalso
      simp only [shWhite, Bool.or_eq_true, decide_eq_true_eq] at hw
      rcases hw with ((rfl | rfl) | rfl) | rfl <;> revert h <;> decide
  · cases hw : shQuote c with
    | false => rfl
    | true =>
      exfalso
      simp only [shQuote, Bool.or_eq_true, decide_eq_true_eq] at hw
      rcases hw with rfl | rfl <;> revert h <;> decide
  · rintro rfl; revert h; decide
  · rintro _ rfl; revert h; decide

theorem shlexGo_quoted_body (cm : Bool) (s tok rest : Str) :
    shlexGo cm (.quote '\'') tok ((s.map fun c => if c = '\'' then c!"'\"'\"'" else [c]).flatten ++ '\'' :: rest) =
      shlexGo cm .word (tok ++ s) rest := by
  induction s generalizing tok with
  | nil => simp [shlexGo]
  | cons c t ih =>
    by_cases hc : c = '\''
    · subst hc
      have e1 : shWhite '"' = false := by decide
      have e2 : shQuote '"' = true := by decide
      have e3 : (cm && '"' == '#') = false := by cases cm <;> decide
      have e4 : ('\'' == '"') = false := by decide
      have e5 : ('\'' == '\\') = false := by decide
      have e6 : shWhite '\'' = false := by decide
      have e7 : shQuote '\'' = true := by decide
      have e8 : (cm && '\'' == '#') = false := by cases cm <;> decide
      simp only [List.map_cons, if_true, List.flatten_cons, List.cons_append, List.nil_append, shlexGo,
        beq_self_eq_true, e1, e2, e3, e4, e5, e6, e7, e8, Bool.false_and, Bool.false_eq_true, if_false]
      rw [ih]
      simp
    · have e1 : (c == '\'') = false := by simpa using hc
      have e2 : (c == '\\' && '\'' == '"') = false := by
        have : ('\'' == '"') = false := by decide
        simp [this]
      simp only [List.map_cons, if_neg hc, List.flatten_cons, List.cons_append, List.nil_append, shlexGo,
        e1, e2, Bool.false_eq_true, if_false]
      rw [ih]
      simp

theorem shlexGo_quoteArg (cm : Bool) (s rest : Str) :
    shlexGo cm .space [] (quoteArg s ++ rest) = shlexGo cm .word s rest := by
  unfold quoteArg
  split
  · rename_i h
    subst h
    exact shlexGo_word cm [.single []] [] rest ⟨by simp, by simp [Seg.Ok]⟩
  · rename_i hne
    split
    · rename_i hs
      have := shlexGo_word cm (s.map Seg.bare) [] rest (word_bare_ok hne (fun c hc =>
        safe_bare c (List.all_eq_true.1 hs c hc) cm))
      simpa using this
    · have e1 : shWhite '\'' = false := by decide
      have e2 : shQuote '\'' = true := by decide
      have e3 : (cm && '\'' == '#') = false := by cases cm <;> decide
      have e4 : ('\'' == '\\') = false := by decide
      simp only [List.cons_append, List.nil_append, List.append_assoc, shlexGo, e1, e2, e3, e4,
        Bool.false_eq_true, if_false, if_true]
      have := shlexGo_quoted_body cm s [] rest
      simpa using this

/-- C08: quoting any list of arguments on a line and tokenizing the line gives the arguments
back — for arguments with any characters whatever, with or without comment handling, with any
trailing blanks (in particular the line's `\n`). -/
theorem C08_quote_roundtrip (comments : Bool) (args : List Str) (tail : Str)
    (ht : ∀ c ∈ tail, shWhite c = true) :
    shlexSplit (joinWith c!" " (args.map quoteArg) ++ tail) comments = .ok args := by
  unfold shlexSplit
  induction args with
  | nil =>
    have := shlexGo_blanks comments tail [] [] ht
    rw [List.append_nil] at this
    simp only [List.map_nil, joinWith, List.nil_append]
    rw [this]
    simp [shlexGo]
  | cons a t ih =>
    cases t with
    | nil =>
      simp only [List.map_cons, List.map_nil, joinWith]
      rw [shlexGo_quoteArg]
      by_cases hb : tail = []
      · subst hb; rfl
      · have := shlexGo_word_blank comments tail a [] hb ht
        rw [List.append_nil] at this
        rw [this]; rfl
    | cons b t =>
      simp only [List.map_cons, joinWith, List.append_assoc] at ih ⊢
      rw [shlexGo_quoteArg, shlexGo_word_blank comments c!" " _ _ (by simp) (by decide), ih]
      rfl

/-- C08: a word without blanks, quotes, backslashes and `#` is one token, unchanged. -/
theorem C08_plain_word (comments : Bool) (w : Str) (hne : w ≠ [])
    (h : ∀ c ∈ w, c ≠ ' ' ∧ c ≠ '\t' ∧ c ≠ '\r' ∧ c ≠ '\n' ∧ c ≠ '\'' ∧ c ≠ '"' ∧ c ≠ '\\' ∧ c ≠ '#') :
    shlexSplit w comments = .ok [w] := by
  have := C08_words comments [w.map Seg.bare] [] [] (by
    intro x hx
    simp only [List.mem_singleton] at hx
    subst hx
    refine word_bare_ok hne (fun c hc => ?_)
    obtain ⟨h1, h2, h3, h4, h5, h6, h7, h8⟩ := h c hc
    exact ⟨by simp [shWhite, h1, h2, h3, h4], by simp [shQuote, h5, h6], h7, fun _ => h8⟩) (by simp) (by simp)
  simpa [joinWith] using this

example : shlexSplit (joinWith c!" " ([c!"it's", c!"", c!"a \"b\" \\ #c", c!"--x=1"].map quoteArg) ++ c!"\n") true
    = .ok [c!"it's", c!"", c!"a \"b\" \\ #c", c!"--x=1"] := by decide +kernel

/-! ## C09 -/

theorem shlexGo_comment_skip (c : Str) (hc : '\n' ∉ c) (tok nl : Str) (hnl : nl = [] ∨ nl = c!"\n") :
    shlexGo true .comment tok (c ++ nl) = .ok [] := by
  induction c generalizing tok with
  | nil => rcases hnl with rfl | rfl <;> simp [shlexGo]
  | cons d t ih =>
    simp only [List.mem_cons, not_or] at hc
    have : (d == '\n') = false := by simpa using fun e => hc.1 e.symm
    rw [List.cons_append, shlexGo]
    simp only [this, Bool.false_eq_true, if_false]
    exact ih hc.2 []

theorem shlexGo_append_comment (st : LexState) (tok body c nl : Str) (args : List Str)
    (h : shlexGo true st tok body = .ok args) (hc : '\n' ∉ c) (hnl : nl = [] ∨ nl = c!"\n") :
    shlexGo true st tok (body ++ (c!" #" ++ c ++ nl)) = .ok args := by
  have hw : shWhite ' ' = true := by decide
  have hw2 : shWhite '#' = false := by decide
  have hbase : ∀ tok, shlexGo true .space tok (c!" #" ++ c ++ nl) = .ok [] := by
    intro tok
    have := shlexGo_comment_skip c hc [] nl hnl
    simp [shlexGo, hw, hw2, this]
  induction body generalizing st tok args with
  | nil =>
    rw [List.nil_append]
    cases st with
    | space => rw [hbase]; simpa [shlexGo] using h
    | comment =>
      have h1 : (' ' == '\n') = false := by decide
      have h2 : ('#' == '\n') = false := by decide
      have := shlexGo_comment_skip c hc [] nl hnl
      simp only [List.cons_append, List.nil_append, shlexGo, h1, h2, Bool.false_eq_true, if_false, this]
      simpa [shlexGo] using h
    | word =>
      have := hbase []
      simp only [List.cons_append, List.nil_append, shlexGo, hw, hw2, if_true, Bool.false_eq_true, if_false, beq_self_eq_true, Bool.and_self] at this ⊢
      rw [this]
      simpa [shlexGo, Except.map] using h
    | quote q => simp [shlexGo] at h
    | escWord => simp [shlexGo] at h
    | escQuote => simp [shlexGo] at h
  | cons d t ih =>
    have hmap : ∀ (st : LexState) (tok : Str), (shlexGo true st [] t).map (tok :: ·) = .ok args →
        (shlexGo true st [] (t ++ (c!" #" ++ c ++ nl))).map (tok :: ·) = .ok args := by
      intro st tok h
      cases hg : shlexGo true st [] t with
      | error e => rw [hg] at h; cases h
      | ok a =>
        rw [ih st [] a hg, ← hg]
        exact h
    rw [List.cons_append]
    cases st with
    | space =>
      simp only [shlexGo] at h ⊢
      repeat' split at h
      all_goals first
        | (rename_i h1; simp only [h1, if_true]; exact ih _ _ _ h)
        | skip
      all_goals simp_all
    | comment =>
      simp only [shlexGo] at h ⊢
      split at h
      · rename_i h1; simp only [h1, if_true]; exact ih _ _ _ h
      · rename_i h1; simp only [h1, Bool.false_eq_true, if_false]; exact ih _ _ _ h
    | word =>
      simp only [shlexGo] at h ⊢
      split at h
      · rename_i h1; simp only [h1, if_true]; exact hmap _ _ h
      · rename_i h1
        simp only [h1, Bool.false_eq_true, if_false]
        split at h
        · rename_i h2; simp only [h2, if_true]; exact hmap _ _ h
        · rename_i h2
          simp only [h2, Bool.false_eq_true, if_false]
          split at h
          · rename_i h3; simp only [h3, if_true]; exact ih _ _ _ h
          · rename_i h3
            simp only [h3, Bool.false_eq_true, if_false]
            split at h
            · rename_i h4; simp only [h4, if_true]; exact ih _ _ _ h
            · rename_i h4; simp only [h4, Bool.false_eq_true, if_false]; exact ih _ _ _ h
    | quote q =>
      simp only [shlexGo] at h ⊢
      split at h
      · rename_i h1; simp only [h1, if_true]; exact ih _ _ _ h
      · rename_i h1
        simp only [h1, Bool.false_eq_true, if_false]
        split at h
        · rename_i h2; simp only [h2, if_true]; exact ih _ _ _ h
        · rename_i h2; simp only [h2, Bool.false_eq_true, if_false]; exact ih _ _ _ h
    | escWord => simp only [shlexGo] at h ⊢; exact ih _ _ _ h
    | escQuote =>
      simp only [shlexGo] at h ⊢
      split at h
      · rename_i h1; simp only [h1, if_true]; exact ih _ _ _ h
      · rename_i h1; simp only [h1, Bool.false_eq_true, if_false]; exact ih _ _ _ h

/-- C09: if the line tokenizes (no open quote, no dangling backslash), appending
` # any comment` changes nothing, with or without the final newline. -/
theorem C09_trailing_comment (body comment nl : Str) (args : List Str)
    (h : shlexSplit body true = .ok args) (hc : '\n' ∉ comment) (hnl : nl = [] ∨ nl = c!"\n") :
    shlexSplit (body ++ c!" #" ++ comment ++ nl) true = .ok args := by
  unfold shlexSplit at h ⊢
  have := shlexGo_append_comment .space [] body comment nl args h hc hnl
  simpa [List.append_assoc] using this

/-- C09: a comment-only line has no tokens. -/
theorem C09_only_comment (comment nl : Str) (hc : '\n' ∉ comment) (hnl : nl = [] ∨ nl = c!"\n") :
    shlexSplit (c!"#" ++ comment ++ nl) true = .ok [] := by
  unfold shlexSplit
  have := shlexGo_comment_skip comment hc [] nl hnl
  simp only [List.cons_append, List.nil_append, shlexGo]
  rw [show shWhite '#' = false by decide]
  simp [this]

example : shlexSplit c!"part / --fstype=\"ext 4\"" true = .ok [c!"part", c!"/", c!"--fstype=ext 4"] ∧
    shlexSplit c!"part / --fstype=\"ext 4\" # it's \"here\n" true = .ok [c!"part", c!"/", c!"--fstype=ext 4"] := by
  decide +kernel

end Ks
