import Verif.PyStr
import Verif.PyInt
/-!
# Lemmas about the string primitives (helpers, not property statements)
-/
namespace Ks

@[simp] theorem startsWith_nil (s : Str) : startsWith s [] = true := by
  simp [startsWith]

theorem startsWith_iff {s p : Str} : startsWith s p = true ↔ ∃ t, s = p ++ t := by
  simp only [startsWith, List.isPrefixOf_iff_prefix, List.IsPrefix]
  constructor <;> rintro ⟨t, h⟩ <;> exact ⟨t, h.symm⟩

@[simp] theorem startsWith_append (p t : Str) : startsWith (p ++ t) p = true :=
  startsWith_iff.2 ⟨t, rfl⟩

@[simp] theorem startsWith_cons_cons (a b : Char) (s p : Str) :
    startsWith (a :: s) (b :: p) = (b == a && startsWith s p) := rfl

@[simp] theorem startsWith_nil_cons (b : Char) (p : Str) : startsWith [] (b :: p) = false := rfl

theorem endsWith_iff {s p : Str} : endsWith s p = true ↔ ∃ t, s = t ++ p := by
  simp only [endsWith, List.isSuffixOf_iff_suffix, List.IsSuffix]
  constructor <;> rintro ⟨t, h⟩ <;> exact ⟨t, h.symm⟩

/-! ## strip -/

/-- Text with no blank at either end. -/
def Trimmed (s : Str) : Prop :=
  (∀ c, s.head? = some c → isSpace c = false) ∧ (∀ c, s.getLast? = some c → isSpace c = false)

theorem lstrip_eq_self {s : Str} (h : ∀ c, s.head? = some c → isSpace c = false) : lstrip s = s := by
  cases s with
  | nil => rfl
  | cons c t =>
    have := h c rfl
    simp [lstrip, this]

theorem rstrip_eq_self {s : Str} (h : ∀ c, s.getLast? = some c → isSpace c = false) :
    rstrip s = s := by
  unfold rstrip
  have : s.reverse.dropWhile isSpace = s.reverse := by
    apply lstrip_eq_self
    intro c hc
    exact h c (by simpa using hc)
  rw [this, List.reverse_reverse]

theorem strip_eq_self {s : Str} (h : Trimmed s) : strip s = s := by
  unfold strip
  rw [lstrip_eq_self h.1, rstrip_eq_self h.2]

theorem rstrip_prefix (s : Str) : ∃ t, s = rstrip s ++ t ∧ t.all isSpace = true := by
  refine ⟨(s.reverse.takeWhile isSpace).reverse, ?_, ?_⟩
  · unfold rstrip
    rw [← List.reverse_append, List.takeWhile_append_dropWhile, List.reverse_reverse]
  · rw [List.all_reverse]
    exact List.all_takeWhile

theorem lstrip_suffix (s : Str) : ∃ t, s = t ++ lstrip s ∧ t.all isSpace = true :=
  ⟨s.takeWhile isSpace, (List.takeWhile_append_dropWhile).symm, List.all_takeWhile⟩

theorem lstrip_head (s : Str) : ∀ c, (lstrip s).head? = some c → isSpace c = false := by
  intro c hc
  have := List.head?_dropWhile_not isSpace s
  unfold lstrip at hc
  rw [hc] at this
  simpa using this

theorem rstrip_last (s : Str) : ∀ c, (rstrip s).getLast? = some c → isSpace c = false := by
  intro c hc
  unfold rstrip at hc
  rw [List.getLast?_reverse] at hc
  exact lstrip_head s.reverse c hc

theorem strip_decomp (s : Str) :
    ∃ a b, s = a ++ strip s ++ b ∧ a.all isSpace = true ∧ b.all isSpace = true := by
  obtain ⟨a, ha, ha'⟩ := lstrip_suffix s
  obtain ⟨b, hb, hb'⟩ := rstrip_prefix (lstrip s)
  refine ⟨a, b, ?_, ha', hb'⟩
  unfold strip
  rw [List.append_assoc, ← hb, ← ha]

theorem strip_trimmed (s : Str) : Trimmed (strip s) := by
  refine ⟨?_, rstrip_last _⟩
  intro c hc
  unfold strip at hc
  obtain ⟨b, hb, _⟩ := rstrip_prefix (lstrip s)
  apply lstrip_head s c
  cases h : rstrip (lstrip s) with
  | nil => rw [h] at hc; simp at hc
  | cons d t =>
    rw [h] at hc
    rw [hb, h]
    simpa using hc

theorem dropWhile_append_all {p : Char → Bool} {a s : Str} (h : a.all p = true) :
    (a ++ s).dropWhile p = s.dropWhile p := by
  induction a with
  | nil => rfl
  | cons c t ih =>
    simp only [List.all_cons, Bool.and_eq_true] at h
    simp [h.1, ih h.2]

theorem lstrip_append_space {a s : Str} (h : a.all isSpace = true) : lstrip (a ++ s) = lstrip s :=
  dropWhile_append_all h

theorem rstrip_append_space {s b : Str} (h : b.all isSpace = true) : rstrip (s ++ b) = rstrip s := by
  unfold rstrip
  rw [List.reverse_append, dropWhile_append_all (by rw [List.all_reverse]; exact h)]

/-- `strip` of padded trimmed text is the text. -/
theorem strip_padded {a s b : Str} (ha : a.all isSpace = true) (hb : b.all isSpace = true)
    (hs : Trimmed s) : strip (a ++ s ++ b) = s := by
  unfold strip
  rw [List.append_assoc, lstrip_append_space ha]
  cases s with
  | nil =>
    simp only [List.nil_append]
    have : lstrip b = [] := by
      have := lstrip_append_space (s := []) hb
      simpa [lstrip] using this
    rw [this]; rfl
  | cons c t =>
    have hc : isSpace c = false := hs.1 c rfl
    have : lstrip (c :: t ++ b) = c :: t ++ b := lstrip_eq_self (by
      intro d hd
      simp at hd
      subst hd
      exact hc)
    rw [this, rstrip_append_space hb, rstrip_eq_self hs.2]

theorem strip_all_space {s : Str} (h : s.all isSpace = true) : strip s = [] := by
  have := strip_padded (s := []) h (b := []) rfl ⟨by simp, by simp⟩
  simpa using this

/-! ## splitOn / joinWith -/

theorem splitOn_ne_nil (sep : Char) (s : Str) : splitOn sep s ≠ [] := by
  cases s with
  | nil => simp [splitOn]
  | cons c t =>
    simp only [splitOn]
    split
    · simp
    · split <;> simp

theorem splitOn_no_sep {sep : Char} {s : Str} (h : sep ∉ s) : splitOn sep s = [s] := by
  induction s with
  | nil => rfl
  | cons c t ih =>
    simp only [List.mem_cons, not_or] at h
    simp only [splitOn, ih h.2]
    rw [if_neg (fun hh => h.1 hh.symm)]

theorem splitOn_append_sep {sep : Char} {a b : Str} (h : sep ∉ a) :
    splitOn sep (a ++ sep :: b) = a :: splitOn sep b := by
  induction a with
  | nil => simp [splitOn]
  | cons c t ih =>
    simp only [List.mem_cons, not_or] at h
    simp only [List.cons_append, splitOn, ih h.2]
    rw [if_neg (fun hh => h.1 hh.symm)]

theorem splitOn_joinWith {sep : Char} {l : List Str} (hne : l ≠ []) (h : ∀ x ∈ l, sep ∉ x) :
    splitOn sep (joinWith [sep] l) = l := by
  induction l with
  | nil => exact absurd rfl hne
  | cons x t ih =>
    cases t with
    | nil => simpa [joinWith] using splitOn_no_sep (h x (by simp))
    | cons y t =>
      simp only [joinWith, List.append_assoc, List.singleton_append]
      rw [splitOn_append_sep (h x (by simp))]
      rw [ih (by simp) (fun z hz => h z (by simp [hz]))]

theorem joinWith_splitOn (sep : Char) (s : Str) : joinWith [sep] (splitOn sep s) = s := by
  induction s with
  | nil => rfl
  | cons c t ih =>
    simp only [splitOn]
    split
    · rename_i h
      subst h
      cases hs : splitOn c t with
      | nil => exact absurd hs (splitOn_ne_nil _ _)
      | cons l ls => rw [hs] at ih; simp [joinWith, ih]
    · cases hs : splitOn sep t with
      | nil => exact absurd hs (splitOn_ne_nil _ _)
      | cons l ls =>
        rw [hs] at ih
        cases ls with
        | nil => simp only [joinWith] at ih ⊢; rw [ih]
        | cons m ls => simp only [joinWith, List.cons_append] at ih ⊢; rw [ih]

theorem not_mem_of_mem_splitOn {sep : Char} {s x : Str} (h : x ∈ splitOn sep s) : sep ∉ x := by
  induction s generalizing x with
  | nil => simp [splitOn] at h; subst h; simp
  | cons c t ih =>
    simp only [splitOn] at h
    split at h
    · rcases List.mem_cons.1 h with h | h
      · subst h; simp
      · exact ih h
    · rename_i hc
      cases hs : splitOn sep t with
      | nil => exact absurd hs (splitOn_ne_nil _ _)
      | cons l ls =>
        rw [hs] at h ih
        simp only at h
        rcases List.mem_cons.1 h with h | h
        · subst h
          have := ih (x := l) (by simp)
          simp only [List.mem_cons, not_or]
          exact ⟨fun e => hc e.symm, this⟩
        · exact ih (by simp [h])

/-! ## splitLines -/

theorem splitLines_flatten (s : Str) : (splitLines s).flatten = s := by
  fun_induction splitLines s with
  | case1 => rfl
  | case2 => rfl
  | case3 c d t h ih => simp [ih]
  | case4 c d t h1 h2 ih => simp [ih]
  | case5 c d t h1 h2 h3 ih => simp_all
  | case6 c d t h1 h2 l ls h3 ih => simp_all

theorem splitLines_ne_nil {s : Str} (h : s ≠ []) : splitLines s ≠ [] := by
  intro hs
  have := splitLines_flatten s
  rw [hs] at this
  exact h this.symm

theorem splitLines_line_ne_nil (s : Str) : ∀ l ∈ splitLines s, l ≠ [] := by
  fun_induction splitLines s with
  | case1 => simp
  | case2 => simp
  | case3 c d t h ih => simpa using ih
  | case4 c d t h1 h2 ih => simpa using ih
  | case5 c d t h1 h2 h3 ih => simp
  | case6 c d t h1 h2 l ls h3 ih =>
    intro x hx
    rw [h3] at ih
    rcases List.mem_cons.1 hx with hx | hx
    · subst hx; simp
    · exact ih x (by simp [hx])

/-- No line boundary character. -/
def NoBreak (s : Str) : Prop := ∀ c ∈ s, isLineBreak c = false

instance (s : Str) : Decidable (NoBreak s) := by unfold NoBreak; infer_instance

theorem splitLines_cons_of_noBreak {c : Char} {s : Str} (hc : isLineBreak c = false) (hs : s ≠ []) :
    splitLines (c :: s) = match splitLines s with
      | [] => [[c]]
      | l :: ls => (c :: l) :: ls := by
  cases s with
  | nil => exact absurd rfl hs
  | cons d t =>
    have : c ≠ '\r' := by rintro rfl; revert hc; decide
    rw [splitLines.eq_def]
    simp only [this, false_and, if_false, hc, Bool.false_eq_true]
    cases splitLines (d :: t) <;> rfl

/-- A line ended by `\n` is split off as it is. -/
theorem splitLines_line {b rest : Str} (h : NoBreak b) :
    splitLines (b ++ '\n' :: rest) = (b ++ ['\n']) :: splitLines rest := by
  induction b with
  | nil =>
    cases rest with
    | nil => rfl
    | cons d t =>
      simp only [List.nil_append]
      rw [splitLines]
      rw [if_neg (by rintro ⟨h, _⟩; revert h; decide), if_pos (by decide)]
  | cons c t ih =>
    have hc : isLineBreak c = false := h c (by simp)
    have ht : NoBreak t := fun d hd => h d (by simp [hd])
    rw [List.cons_append, splitLines_cons_of_noBreak hc (by simp), ih ht]
    rfl

theorem splitLines_last {b : Str} (h : NoBreak b) (hb : b ≠ []) : splitLines b = [b] := by
  induction b with
  | nil => exact absurd rfl hb
  | cons c t ih =>
    have hc : isLineBreak c = false := h c (by simp)
    have ht : NoBreak t := fun d hd => h d (by simp [hd])
    cases t with
    | nil => rfl
    | cons d t => rw [splitLines_cons_of_noBreak hc (by simp), ih ht (by simp)]

/-- `str.splitlines(True)` of lines that end in `\n` is the list of lines. -/
theorem splitLines_flatten_lines (ls : List Str) (h : ∀ l ∈ ls, ∃ b, NoBreak b ∧ l = b ++ ['\n']) :
    splitLines ls.flatten = ls := by
  induction ls with
  | nil => rfl
  | cons l ls ih =>
    obtain ⟨b, hb, rfl⟩ := h l (by simp)
    simp only [List.flatten_cons, List.append_assoc, List.singleton_append]
    rw [splitLines_line hb, ih (fun l hl => h l (by simp [hl]))]

theorem splitLines_append_lines (ls : List Str) (rest : Str)
    (h : ∀ l ∈ ls, ∃ b, NoBreak b ∧ l = b ++ ['\n']) :
    splitLines (ls.flatten ++ rest) = ls ++ splitLines rest := by
  induction ls with
  | nil => rfl
  | cons l ls ih =>
    obtain ⟨b, hb, rfl⟩ := h l (by simp)
    simp only [List.flatten_cons, List.append_assoc, List.cons_append, List.nil_append]
    rw [splitLines_line hb, ih (fun l hl => h l (by simp [hl]))]

/-! ## decimal numbers -/

theorem digit_char (d : Nat) (h : d < 10) :
    isDigit (Char.ofNat (48 + d)) = true ∧ digitVal (Char.ofNat (48 + d)) = d := by
  have : d = 0 ∨ d = 1 ∨ d = 2 ∨ d = 3 ∨ d = 4 ∨ d = 5 ∨ d = 6 ∨ d = 7 ∨ d = 8 ∨ d = 9 := by omega
  rcases this with rfl|rfl|rfl|rfl|rfl|rfl|rfl|rfl|rfl|rfl <;> decide

theorem natDigits_isDigit (n : Nat) : ∀ c ∈ natDigits n, isDigit c = true := by
  fun_induction natDigits n with
  | case1 n h =>
    intro c hc
    simp only [List.mem_singleton] at hc
    subst hc
    exact (digit_char n h).1
  | case2 n h ih =>
    intro c hc
    rcases List.mem_append.1 hc with hc | hc
    · exact ih c hc
    · simp only [List.mem_singleton] at hc
      subst hc
      exact (digit_char _ (Nat.mod_lt _ (by decide))).1

theorem natDigits_ne_nil (n : Nat) : natDigits n ≠ [] := by
  rw [natDigits]; split <;> simp

theorem intDigits_append (acc : Nat) (a b : Str) (h : ∀ c ∈ a, isDigit c = true) :
    intDigits acc (a ++ b) = intDigits (a.foldl (fun x c => x * 10 + digitVal c) acc) b := by
  induction a generalizing acc with
  | nil => rfl
  | cons c t ih =>
    have hc := h c (by simp)
    rw [List.cons_append, intDigits.eq_def]; simp only [if_pos hc]; rw [ih _ (fun d hd => h d (by simp [hd]))]
    rfl

theorem natDigits_foldl (n : Nat) :
    (natDigits n).foldl (fun x c => x * 10 + digitVal c) 0 = n := by
  fun_induction natDigits n with
  | case1 n h => simp [(digit_char n h).2]
  | case2 n h ih =>
    rw [List.foldl_append, ih]
    simp only [List.foldl_cons, List.foldl_nil, (digit_char _ (Nat.mod_lt n (by decide : 0 < 10))).2]
    omega

theorem natLit_natDigits (n : Nat) : natLit (natDigits n) = some n := by
  have h := natDigits_isDigit n
  have hf := natDigits_foldl n
  cases hs : natDigits n with
  | nil => exact absurd hs (natDigits_ne_nil n)
  | cons c t =>
    rw [hs] at h hf
    have hc := h c (by simp)
    rw [natLit, if_pos hc]
    have := intDigits_append (digitVal c) t [] (fun d hd => h d (by simp [hd]))
    rw [List.append_nil] at this
    rw [this, intDigits.eq_def]
    simpa using hf

theorem isDigit_range {c : Char} (h : isDigit c = true) : 48 ≤ c.toNat ∧ c.toNat ≤ 57 := by
  simpa [isDigit] using h

theorem isSpace_of_digit {c : Char} (h : isDigit c = true) : isSpace c = false := by
  have := isDigit_range h
  simp only [isSpace, Bool.or_eq_false_iff, Bool.and_eq_false_iff, beq_eq_false_iff_ne, decide_eq_false_iff_not]
  omega

theorem natDigits_trimmed (n : Nat) : Trimmed (natDigits n) := by
  have h := natDigits_isDigit n
  exact ⟨fun c hc => isSpace_of_digit (h c (List.mem_of_mem_head? hc)),
    fun c hc => isSpace_of_digit (h c (List.mem_of_getLast? hc))⟩

theorem intStr_trimmed (n : Int) : Trimmed (intStr n) := by
  cases n with
  | ofNat n => exact natDigits_trimmed n
  | negSucc n =>
    refine ⟨?_, ?_⟩
    · intro c hc
      simp [intStr] at hc
      subst hc
      decide
    · intro c hc
      have : (natDigits (n+1)).getLast? = some c := by
        cases hs : natDigits (n+1) with
        | nil => exact absurd hs (natDigits_ne_nil _)
        | cons d t => rw [intStr, hs] at hc; simpa [List.getLast?_cons] using hc
      exact (natDigits_trimmed (n+1)).2 c this

theorem intSpace_isSpace {c : Char} (h : isSpace c = false) : intSpace c = false := by
  simp [intSpace, h]

theorem intStrip_eq_self {s : Str} (h : Trimmed s) : intStrip s = s := by
  have key : ∀ t : Str, (∀ c, t.head? = some c → isSpace c = false) → t.dropWhile intSpace = t := by
    intro t ht
    cases t with
    | nil => rfl
    | cons c u => simp [intSpace_isSpace (ht c rfl)]
  unfold intStrip
  rw [key s h.1, key s.reverse (fun c hc => h.2 c (by simpa using hc)), List.reverse_reverse]

theorem pyInt_intStr (n : Int) : pyInt (intStr n) = some n := by
  unfold pyInt
  rw [intStrip_eq_self (intStr_trimmed n)]
  cases n with
  | ofNat n =>
    have h := natDigits_isDigit n
    have hl := natLit_natDigits n
    simp only [intStr]
    cases hs : natDigits n with
    | nil => exact absurd hs (natDigits_ne_nil n)
    | cons c t =>
      rw [hs] at h hl
      have hc := h c (by simp)
      have h1 : c ≠ '-' := by rintro rfl; revert hc; decide
      have h2 : c ≠ '+' := by rintro rfl; revert hc; decide
      split
      · rename_i he; injection he with he _; exact absurd he h1
      · rename_i he; injection he with he _; exact absurd he h2
      · rw [hl]; rfl
  | negSucc n =>
    simp only [intStr, natLit_natDigits]
    rfl

theorem intStr_ne_nil (n : Int) : intStr n ≠ [] := by
  cases n with
  | ofNat n => exact natDigits_ne_nil n
  | negSucc n => simp [intStr]

/-- Characters of a printed integer. -/
theorem intStr_chars (n : Int) : ∀ c ∈ intStr n, isDigit c = true ∨ c = '-' := by
  intro c hc
  cases n with
  | ofNat n => exact Or.inl (natDigits_isDigit n c hc)
  | negSucc n =>
    simp only [intStr, List.mem_cons] at hc
    rcases hc with hc | hc
    · exact Or.inr hc
    · exact Or.inl (natDigits_isDigit _ c hc)

theorem intStr_injective {a b : Int} (h : intStr a = intStr b) : a = b := by
  have := congrArg pyInt h
  rw [pyInt_intStr, pyInt_intStr] at this
  exact Option.some.inj this

/-! ## `split()` on blanks -/

theorem splitWs_cons_space {c : Char} {s : Str} (h : isSpace c = true) : splitWs (c :: s) = splitWs s := by
  cases s <;> simp [splitWs, h]

theorem splitWs_word {w : Str} (hne : w ≠ []) (h : ∀ c ∈ w, isSpace c = false) : splitWs w = [w] := by
  induction w with
  | nil => exact absurd rfl hne
  | cons c t ih =>
    have hc := h c (by simp)
    cases t with
    | nil => simp [splitWs, hc]
    | cons d t =>
      have hd := h d (by simp)
      rw [splitWs]
      simp only [hc, hd, ih (by simp) (fun x hx => h x (by simp [hx])), Bool.false_eq_true, if_false]

theorem splitWs_ne_nil_of_cons {d : Char} {t : Str} (hd : isSpace d = false) : splitWs (d :: t) ≠ [] := by
  cases t with
  | nil => simp [splitWs, hd]
  | cons e t =>
    rw [splitWs]
    simp only [hd, Bool.false_eq_true, if_false]
    split
    · simp
    · split <;> simp

theorem splitWs_append_space {a b : Str} {c : Char} (h : isSpace c = true) :
    splitWs (a ++ c :: b) = splitWs a ++ splitWs b := by
  induction a with
  | nil => simp [splitWs, splitWs_cons_space h]
  | cons d t ih =>
    by_cases hd : isSpace d = true
    · rw [List.cons_append, splitWs_cons_space hd, splitWs_cons_space hd, ih]
    · have hd' : isSpace d = false := by simpa using hd
      cases t with
      | nil => simp [splitWs, hd', h]
      | cons e t =>
        have ih' := ih
        rw [List.cons_append] at ih'
        rw [List.cons_append, List.cons_append, splitWs, splitWs]
        simp only [hd', Bool.false_eq_true, if_false]
        by_cases he : isSpace e = true
        · simp only [he, if_true, ih', List.cons_append]
        · have he' : isSpace e = false := by simpa using he
          simp only [he', Bool.false_eq_true, if_false, ih']
          cases hs : splitWs (e :: t) with
          | nil => exact absurd hs (splitWs_ne_nil_of_cons he')
          | cons w ws => rfl

/-- A word: not empty, without blanks. -/
def IsWord (w : Str) : Prop := w ≠ [] ∧ ∀ c ∈ w, isSpace c = false

instance (w : Str) : Decidable (IsWord w) := by unfold IsWord; infer_instance

theorem splitWs_joinWith {ws : List Str} (h : ∀ w ∈ ws, IsWord w) : splitWs (joinWith c!" " ws) = ws := by
  induction ws with
  | nil => rfl
  | cons w t ih =>
    have hw := h w (by simp)
    cases t with
    | nil => exact splitWs_word hw.1 hw.2
    | cons x t =>
      rw [joinWith, List.append_assoc, List.singleton_append, splitWs_append_space (by decide),
        splitWs_word hw.1 hw.2, ih fun y hy => h y (by simp [hy])]
      rfl

theorem splitWs_isWord (s : Str) : ∀ w ∈ splitWs s, IsWord w := by
  induction s with
  | nil => simp [splitWs]
  | cons c t ih =>
    by_cases hc : isSpace c = true
    · rw [splitWs_cons_space hc]; exact ih
    · have hc' : isSpace c = false := by simpa using hc
      cases t with
      | nil => simp [splitWs, hc', IsWord]
      | cons d t =>
        rw [splitWs]
        simp only [hc', Bool.false_eq_true, if_false]
        split
        · intro w hw
          rcases List.mem_cons.1 hw with rfl | hw
          · simp [IsWord, hc']
          · exact ih w hw
        · split
          · simp [IsWord, hc']
          · rename_i w ws hs
            rw [hs] at ih
            intro x hx
            rcases List.mem_cons.1 hx with rfl | hx
            · refine ⟨by simp, ?_⟩
              intro y hy
              rcases List.mem_cons.1 hy with rfl | hy
              · exact hc'
              · exact (ih w (by simp)).2 y hy
            · exact ih x (by simp [hx])

end Ks
