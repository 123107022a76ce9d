import Verif.Options
import Verif.PyStrLemmas
import Verif.Props.VersionProps
/-!
# C05-C07, C29, C53: value helpers, line splitting and error messages
-/
namespace Ks

/-! ## C05 `commaSplit` -/

/-- A clean element: not empty, no comma, no surrounding white space. -/
def CleanElem (x : Str) : Prop := x ≠ [] ∧ ',' ∉ x ∧ Trimmed x

/-- C05: every element of the result is clean. -/
theorem C05_elements_clean (s x : Str) (h : x ∈ commaSplit s) : CleanElem x := by
  unfold commaSplit at h
  rw [List.mem_filter] at h
  obtain ⟨h1, h2⟩ := h
  obtain ⟨y, hy, rfl⟩ := List.mem_map.1 h1
  refine ⟨?_, ?_, strip_trimmed y⟩
  · intro e; rw [e] at h2; simp at h2
  · intro hc
    obtain ⟨a, b, he, _, _⟩ := strip_decomp y
    apply not_mem_of_mem_splitOn hy
    rw [he]; simp [hc]

/-- C05: splitting a comma-joined list of padded elements gives the non-empty ones back, in
order. An item is (padding, element, padding); an element may be empty. -/
theorem C05_join_split (items : List (Str × Str × Str))
    (h : ∀ i ∈ items, i.1.all isSpace = true ∧ i.2.2.all isSpace = true ∧
      (i.2.1 = [] ∨ CleanElem i.2.1)) :
    commaSplit (joinWith c!"," (items.map fun i => i.1 ++ i.2.1 ++ i.2.2)) =
      (items.map fun i => i.2.1).filter (fun x => decide (x ≠ [])) := by
  cases hi : items with
  | nil => rfl
  | cons i0 is =>
    unfold commaSplit
    rw [splitOn_joinWith (by simp)]
    · rw [List.map_map]
      have : (i0 :: is).map (strip ∘ fun i => i.1 ++ i.2.1 ++ i.2.2) = (i0 :: is).map fun i => i.2.1 := by
        apply List.map_congr_left
        intro i him
        obtain ⟨h1, h2, h3⟩ := h i (by rw [hi]; exact him)
        simp only [Function.comp_apply]
        apply strip_padded h1 h2
        rcases h3 with h3 | h3
        · rw [h3]; exact ⟨by simp, by simp⟩
        · exact h3.2.2
      rw [this]
      apply List.filter_congr
      intro x _
      cases x <;> simp
    · intro x hx
      obtain ⟨i, him, rfl⟩ := List.mem_map.1 hx
      obtain ⟨h1, h2, h3⟩ := h i (by rw [hi]; exact him)
      have hsp : ∀ a : Str, a.all isSpace = true → ',' ∉ a := by
        intro a ha hc
        have := List.all_eq_true.1 ha _ hc
        revert this; decide
      simp only [List.mem_append, not_or]
      refine ⟨⟨hsp _ h1, ?_⟩, hsp _ h2⟩
      rcases h3 with h3 | h3
      · rw [h3]; simp
      · exact h3.2.1

/-- C05: joining clean elements with commas and splitting is the identity. -/
theorem C05_roundtrip (l : List Str) (h : ∀ x ∈ l, CleanElem x) :
    commaSplit (joinWith c!"," l) = l := by
  have := C05_join_split (l.map fun x => ([], x, [])) (by
    intro i hi
    obtain ⟨x, hx, rfl⟩ := List.mem_map.1 hi
    exact ⟨rfl, rfl, Or.inr (h x hx)⟩)
  simp only [List.map_map, Function.comp_def, List.nil_append, List.append_nil, List.map_id'] at this
  rw [this, List.filter_eq_self]
  intro x hx
  simpa using (h x hx).1

example : CleanElem c!"sda 1" ∧ commaSplit c!" sda 1 ,,sdb, " = [c!"sda 1", c!"sdb"] :=
  ⟨⟨by decide, by decide, by unfold Trimmed; simp; decide⟩, by decide⟩

/-! ## C06 `ksboolean` -/

/-- C06: `True` exactly for the four true words in any case. -/
theorem C06_true_iff (v : Str) :
    ksboolean v = some true ↔ lower v = c!"on" ∨ lower v = c!"yes" ∨ lower v = c!"true" ∨ lower v = c!"1" := by
  unfold ksboolean
  split
  · rename_i h; simpa using h
  · rename_i h
    split
    · simp only [Option.some.injEq, Bool.false_eq_true, false_iff]
      simpa using h
    · simp only [reduceCtorEq, false_iff]
      simpa using h

/-- C06: `False` exactly for the four false words in any case. -/
theorem C06_false_iff (v : Str) :
    ksboolean v = some false ↔ lower v = c!"off" ∨ lower v = c!"no" ∨ lower v = c!"false" ∨ lower v = c!"0" := by
  unfold ksboolean
  split
  · rename_i h
    have h' : lower v = c!"on" ∨ lower v = c!"yes" ∨ lower v = c!"true" ∨ lower v = c!"1" := by simpa using h
    simp only [Option.some.injEq, Bool.true_eq_false, false_iff]
    rcases h' with h | h | h | h <;> rw [h] <;> decide
  · split
    · rename_i h; simpa using h
    · rename_i h
      simp only [reduceCtorEq, false_iff]
      simpa using h

/-- C06: the answer does not depend on letter case. -/
theorem C06_case (v w : Str) (h : lower v = lower w) : ksboolean v = ksboolean w := by
  unfold ksboolean; rw [h]

example : ksboolean c!"YeS" = some true ∧ ksboolean c!"oFF" = some false ∧ ksboolean c!"yes " = none := by decide

/-! ## C07 `mountpoint` -/

/-- A proper path component: not empty, not `.`, not `..`, no slash. -/
def ProperComp (x : Str) : Prop := x ≠ [] ∧ x ≠ c!"." ∧ x ≠ c!".." ∧ '/' ∉ x

/-- A canonical absolute path with `k` leading slashes. -/
def CanonPath (k : Nat) (comps : List Str) : Str := List.replicate k '/' ++ joinWith c!"/" comps

theorem normComps_proper (acc cs : List Str) (ha : ∀ x ∈ acc, ProperComp x) (hc : ∀ x ∈ cs, '/' ∉ x) :
    ∀ x ∈ normComps true acc cs, ProperComp x := by
  induction cs generalizing acc with
  | nil => simpa [normComps] using ha
  | cons c cs ih =>
    have hcs : ∀ x ∈ cs, '/' ∉ x := fun x hx => hc x (by simp [hx])
    simp only [normComps]
    split
    · exact ih acc ha hcs
    · rename_i h1
      simp only [not_or] at h1
      split
      · rename_i h2
        apply ih _ _ hcs
        intro x hx
        rcases List.mem_cons.1 hx with rfl | hx
        · refine ⟨h1.1, h1.2, ?_, hc x (by simp)⟩
          rcases h2 with h2 | h2 | h2
          · exact h2
          · simp at h2
          · exfalso
            cases acc with
            | nil => simp at h2
            | cons a as =>
              simp only [List.head?_cons, Option.some.injEq] at h2
              exact (ha a (by simp)).2.2.1 h2.2
        · exact ha x hx
      · exact ih _ (fun x hx => ha x (List.mem_of_mem_tail hx)) hcs

theorem normComps_id (acc cs : List Str) (hc : ∀ x ∈ cs, ProperComp x) :
    normComps true acc cs = acc.reverse ++ cs := by
  induction cs generalizing acc with
  | nil => simp [normComps]
  | cons c cs ih =>
    have h := hc c (by simp)
    simp only [normComps]
    rw [if_neg (by simp only [not_or]; exact ⟨h.1, h.2.1⟩), if_pos (Or.inl h.2.2.1)]
    rw [ih _ (fun x hx => hc x (by simp [hx]))]
    simp

theorem normpath_abs {p : Str} (h : startsWith p c!"/" = true) :
    normpath p = CanonPath (if startsWith p c!"//" = true ∧ ¬ startsWith p c!"///" = true then 2 else 1)
      (normComps true [] (splitOn '/' p)) := by
  unfold normpath
  have hp : p ≠ [] := by rintro rfl; simp at h
  rw [if_neg hp]
  simp only [h, if_true]
  have hk : (if startsWith p c!"//" = true ∧ ¬ startsWith p c!"///" = true then 2 else 1) ≠ 0 := by split <;> simp
  simp only [hk, ne_eq, not_false_eq_true, decide_true]
  rw [if_neg]
  · rfl
  · split <;> simp [List.replicate_succ]

theorem joinWith_head {l : List Str} {c : Char} (h : ∀ x ∈ l, ProperComp x) :
    (joinWith c!"/" l).head? = some c → c ≠ '/' := by
  cases l with
  | nil => simp [joinWith]
  | cons x t =>
    have hx := h x (by simp)
    intro hh
    have : x.head? = some c := by
      cases x with
      | nil => exact absurd rfl hx.1
      | cons d u => cases t <;> simpa [joinWith] using hh
    rintro rfl
    exact hx.2.2.2 (List.mem_of_mem_head? this)

theorem splitOn_canon (k : Nat) (comps : List Str) (hne : comps ≠ []) (h : ∀ x ∈ comps, ProperComp x) :
    splitOn '/' (CanonPath k comps) = List.replicate k [] ++ comps := by
  induction k with
  | zero =>
    simp only [CanonPath, List.replicate_zero, List.nil_append]
    exact splitOn_joinWith hne (fun x hx => (h x hx).2.2.2)
  | succ k ih =>
    simp only [CanonPath, List.replicate_succ, List.cons_append, splitOn, if_true] at ih ⊢
    rw [ih]

theorem normComps_skip (k : Nat) (acc cs : List Str) :
    normComps true acc (List.replicate k [] ++ cs) = normComps true acc cs := by
  induction k with
  | zero => rfl
  | succ k ih => simp [List.replicate_succ, normComps, ih]

theorem normpath_canon (k : Nat) (hk : k = 1 ∨ k = 2) (comps : List Str) (h : ∀ x ∈ comps, ProperComp x) :
    normpath (CanonPath k comps) = CanonPath k comps := by
  have hst : startsWith (CanonPath k comps) c!"/" = true := by
    rcases hk with rfl | rfl <;> simp [CanonPath, List.replicate_succ]
  rw [normpath_abs hst]
  have hcomp : normComps true [] (splitOn '/' (CanonPath k comps)) = comps := by
    by_cases hne : comps = []
    · subst hne
      rcases hk with rfl | rfl <;> decide
    · rw [splitOn_canon k comps hne h, normComps_skip, normComps_id [] comps h]
      rfl
  rw [hcomp]
  congr 1
  have hhead : ∀ s : Str, (joinWith c!"/" comps = '/' :: s) → False := by
    intro s hs
    exact joinWith_head (c := '/') h (by rw [hs]; rfl) rfl
  have hnot : startsWith (joinWith c!"/" comps) c!"/" = false := by
    cases hj : joinWith c!"/" comps with
    | nil => rfl
    | cons c t =>
      by_cases hc : c = '/'
      · subst hc; exact absurd hj (hhead t)
      · have : ('/' == c) = false := by simpa using fun e => hc e.symm
        simp [this]
  rcases hk with rfl | rfl
  · have : startsWith (CanonPath 1 comps) c!"//" = false := by
      simpa [CanonPath, List.replicate_succ] using hnot
    simp [this]
  · have h1 : startsWith (CanonPath 2 comps) c!"//" = true := by simp [CanonPath, List.replicate_succ]
    have h2 : startsWith (CanonPath 2 comps) c!"///" = false := by
      simpa [CanonPath, List.replicate_succ] using hnot
    simp [h1, h2]

/-- C07: a relative value is left alone. -/
theorem C07_relative (p : Str) (h : ∀ t, p ≠ '/' :: t) : mountpoint p = p := by
  unfold mountpoint
  rw [if_neg]
  intro hs
  obtain ⟨t, ht⟩ := startsWith_iff.1 hs
  exact h t ht

/-- C07: an absolute value becomes a canonical path: one leading slash (two exactly when the
value starts with exactly two, as POSIX requires) followed by proper components separated by
single slashes; in particular no trailing slash, no `.`, no `..`. -/
theorem C07_canonical (t : Str) :
    ∃ k comps, mountpoint ('/' :: t) = CanonPath k comps ∧ (∀ x ∈ comps, ProperComp x) ∧
      ((k = 2 ∧ (∃ u, t = '/' :: u) ∧ ¬ ∃ u, t = '/' :: '/' :: u) ∨
       (k = 1 ∧ ¬ ((∃ u, t = '/' :: u) ∧ ¬ ∃ u, t = '/' :: '/' :: u))) := by
  have h2 : startsWith ('/' :: t) c!"//" = true ↔ ∃ u, t = '/' :: u := by
    rw [startsWith_cons_cons]; simp [startsWith_iff]
  have h3 : startsWith ('/' :: t) c!"///" = true ↔ ∃ u, t = '/' :: '/' :: u := by
    rw [startsWith_cons_cons]; simp [startsWith_iff]
  refine ⟨if startsWith ('/' :: t) c!"//" = true ∧ ¬ startsWith ('/' :: t) c!"///" = true then 2 else 1,
    normComps true [] (splitOn '/' ('/' :: t)), ?_, ?_, ?_⟩
  · unfold mountpoint
    rw [if_pos (by simp), normpath_abs (by simp)]
  · exact normComps_proper _ _ (by simp) (fun x hx => not_mem_of_mem_splitOn hx)
  · rw [← h2, ← h3]
    split
    · rename_i h; exact Or.inl ⟨rfl, h⟩
    · rename_i h; exact Or.inr ⟨rfl, h⟩

/-- C07: `mountpoint` is idempotent. -/
theorem C07_idempotent (p : Str) : mountpoint (mountpoint p) = mountpoint p := by
  by_cases h : ∃ t, p = '/' :: t
  · obtain ⟨t, rfl⟩ := h
    obtain ⟨k, comps, h1, h2, h3⟩ := C07_canonical t
    rw [h1]
    have hk : ∀ k, k = 1 ∨ k = 2 → mountpoint (CanonPath k comps) = CanonPath k comps := by
      intro k hk
      unfold mountpoint
      split
      · exact normpath_canon k hk comps h2
      · rfl
    apply hk
    rcases h3 with h3 | h3
    · exact Or.inr h3.1
    · exact Or.inl h3.1
  · rw [C07_relative p (fun t e => h ⟨t, e⟩)]
    exact C07_relative p (fun t e => h ⟨t, e⟩)

example : mountpoint c!"/usr//./local/../share/" = c!"/usr/share" ∧ mountpoint c!"/.." = c!"/" ∧
    mountpoint c!"//srv/" = c!"//srv" ∧ mountpoint c!"swap/" = c!"swap/" := by decide

/-! ## C29 `splitlines` -/

/-- A line terminator: one boundary character or `\r\n`. -/
def LineEnd (e : Str) : Prop := (∃ c, isLineBreak c = true ∧ e = [c]) ∨ e = c!"\r\n"

/-- A full line: text without boundaries and one terminator. -/
def FullLine (l : Str) : Prop := ∃ b e, l = b ++ e ∧ NoBreak b ∧ LineEnd e

/-- C29: nothing is lost or reordered. -/
theorem C29_lossless (s : Str) : (splitLines s).flatten = s := splitLines_flatten s

theorem splitLines_shape (s : Str) :
    ∃ ls tail, splitLines s = ls ++ tail ∧ (∀ l ∈ ls, FullLine l) ∧
      (tail = [] ∨ ∃ l, tail = [l] ∧ l ≠ [] ∧ NoBreak l) := by
  fun_induction splitLines s with
  | case1 => exact ⟨[], [], rfl, by simp, Or.inl rfl⟩
  | case2 c =>
    by_cases hc : isLineBreak c = true
    · refine ⟨[[c]], [], rfl, ?_, Or.inl rfl⟩
      intro l hl
      simp at hl
      subst hl
      exact ⟨[], [c], rfl, by simp [NoBreak], Or.inl ⟨c, hc, rfl⟩⟩
    · refine ⟨[], [[c]], rfl, by simp, Or.inr ⟨[c], rfl, by simp, ?_⟩⟩
      intro d hd
      simp at hd
      subst hd
      simpa using hc
  | case3 c d t h ih =>
    obtain ⟨ls, tail, h1, h2, h3⟩ := ih
    refine ⟨[c, d] :: ls, tail, by rw [h1]; rfl, ?_, h3⟩
    intro l hl
    rcases List.mem_cons.1 hl with rfl | hl
    · exact ⟨[], _, rfl, by simp [NoBreak], Or.inr (by rw [h.1, h.2])⟩
    · exact h2 l hl
  | case4 c d t h1 h2 ih =>
    obtain ⟨ls, tail, g1, g2, g3⟩ := ih
    refine ⟨[c] :: ls, tail, by rw [g1]; rfl, ?_, g3⟩
    intro l hl
    rcases List.mem_cons.1 hl with rfl | hl
    · exact ⟨[], _, rfl, by simp [NoBreak], Or.inl ⟨c, h2, rfl⟩⟩
    · exact g2 l hl
  | case5 c d t h1 h2 h3 ih => exact absurd h3 (splitLines_ne_nil (by simp))
  | case6 c d t h1 h2 l ls h3 ih =>
    obtain ⟨ls', tail, g1, g2, g3⟩ := ih
    rw [h3] at g1
    have hc : isLineBreak c = false := by simpa using h2
    cases ls' with
    | nil =>
      rw [List.nil_append] at g1
      rcases g3 with g3 | ⟨l', g3, g4, g5⟩
      · rw [g3] at g1; cases g1
      · rw [g3] at g1
        injection g1 with e1 e2
        subst e1
        refine ⟨[], [c :: l], by rw [e2]; rfl, by simp, Or.inr ⟨_, rfl, by simp, ?_⟩⟩
        intro x hx
        rcases List.mem_cons.1 hx with rfl | hx
        · exact hc
        · exact g5 x hx
    | cons x xs =>
      rw [List.cons_append] at g1
      injection g1 with e1 e2
      subst e1
      refine ⟨(c :: l) :: xs, tail, by rw [e2]; rfl, ?_, g3⟩
      intro y hy
      rcases List.mem_cons.1 hy with rfl | hy
      · obtain ⟨b, e, q1, q2, q3⟩ := g2 l (by simp)
        refine ⟨c :: b, e, by rw [q1]; rfl, ?_, q3⟩
        intro z hz
        rcases List.mem_cons.1 hz with rfl | hz
        · exact hc
        · exact q2 z hz
      · exact g2 y (by simp [hy])

/-- C29: every line but the last is text without a line boundary followed by exactly one
terminator; the last one is such a line or non-empty text without any boundary. -/
theorem C29_lines (s : Str) (pre post : List Str) (l : Str) (h : splitLines s = pre ++ l :: post) :
    FullLine l ∨ (post = [] ∧ l ≠ [] ∧ NoBreak l) := by
  obtain ⟨ls, tail, h1, h2, h3⟩ := splitLines_shape s
  rcases h3 with h3 | ⟨l', h3, h4, h5⟩
  · subst h3
    left
    apply h2
    rw [List.append_nil] at h1
    rw [← h1, h]; simp
  · subst h3
    by_cases hp : post = []
    · subst hp
      rw [h] at h1
      have := List.append_inj' h1 rfl
      injection this.2 with e _
      subst e
      exact Or.inr ⟨rfl, h4, h5⟩
    · left
      apply h2
      have hm : l ∈ (pre ++ l :: post).dropLast := by
        rw [List.dropLast_append_of_ne_nil (by simp)]
        rw [List.mem_append]
        right
        cases post with
        | nil => exact absurd rfl hp
        | cons a b => simp
      rw [← h, h1, List.dropLast_concat] at hm
      exact hm

/-- C29: a `\r\n` pair is never divided between two lines. -/
theorem C29_crlf (s : Str) (pre post : List Str) (l m : Str)
    (h : splitLines s = pre ++ l :: m :: post) (hl : l.getLast? = some '\r') : m.head? ≠ some '\n' := by
  induction pre generalizing s with
  | cons p ps ih =>
    -- drop the first line
    have hs : splitLines ((ps ++ l :: m :: post).flatten) = ps ++ l :: m :: post := by
      have key : ∀ s : Str, ∀ a as, splitLines s = a :: as → splitLines as.flatten = as := by
        intro s
        fun_induction splitLines s with
        | case1 => intro a as h; cases h
        | case2 c => intro a as h; injection h with _ h; subst h; rfl
        | case3 c d t h ih =>
          intro a as h'; injection h' with _ h'; subst h'
          rw [splitLines_flatten]
        | case4 c d t h1 h2 ih =>
          intro a as h'; injection h' with _ h'; subst h'
          rw [splitLines_flatten]
        | case5 c d t h1 h2 h3 ih =>
          intro a as h'; injection h' with _ h'; subst h'; rfl
        | case6 c d t h1 h2 l ls h3 ih =>
          intro a as h'; injection h' with _ h'; subst h'
          exact ih _ _ h3
      exact key s p _ h
    exact ih _ hs
  | nil =>
    rw [List.nil_append] at h
    revert l
    fun_induction splitLines s with
    | case1 => intro l hl h; cases h
    | case2 c => intro l hl h; injection h with _ h; cases h
    | case3 c d t hcd ih =>
      intro l hl h
      injection h with h1 h2
      subst h1
      rw [hcd.2] at hl
      exact absurd hl (by simp)
    | case4 c d t h1 h2 ih =>
      intro l hl h
      injection h with e1 e2
      subst e1
      simp at hl
      subst hl
      have hd : d ≠ '\n' := fun e => h1 ⟨rfl, e⟩
      have := splitLines_flatten (d :: t)
      rw [e2] at this
      have hm : m ≠ [] := splitLines_line_ne_nil (d :: t) m (by rw [e2]; simp)
      cases m with
      | nil => exact absurd rfl hm
      | cons a b =>
        simp only [List.flatten_cons, List.cons_append, List.cons.injEq] at this
        rw [List.head?_cons, this.1]
        simpa using hd
    | case5 c d t h1 h2 h3 ih => intro l hl h; injection h with _ h; cases h
    | case6 c d t h1 h2 l' ls h3 ih =>
      intro l hl h
      injection h with e1 e2
      subst e1 
      subst e2
      apply ih l' ?_ h3
      have : l' ≠ [] := splitLines_line_ne_nil (d :: t) l' (by rw [h3]; simp)
      cases l' with
      | nil => exact absurd rfl this
      | cons a b => simpa [List.getLast?_cons] using hl

example : splitLines c!"a\r\nb\n\nc" = [c!"a\r\n", c!"b\n", c!"\n", c!"c"] := by decide

/-! ## C53 error messages -/

/-- `sub` occurs in `s`. -/
def Contains (s sub : Str) : Prop := ∃ a b, s = a ++ sub ++ b

/-- C53: with a line number (and formatting) the text of the error contains the line number and
the message. -/
theorem C53_with_line (msg : Str) (n : Int) :
    Contains (mkKickstartError (.text msg) (some n) true).str (intStr n) ∧
    Contains (mkKickstartError (.text msg) (some n) true).str msg ∧
    (mkKickstartError (.text msg) (some n) true).lineno = some n ∧
    (mkKickstartError (.text msg) (some n) true).message = msg := by
  simp only [mkKickstartError, KsErrObj.str, formatErrorMessage, if_true, and_true]
  by_cases h : msg = []
  · subst h
    rw [if_neg (by simp)]
    refine ⟨⟨_, _, rfl⟩, ⟨[], _, rfl⟩⟩
  · rw [if_pos h]
    refine ⟨⟨c!"The following problem occurred on line ", c!" of the kickstart file:\n\n" ++ msg ++ c!"\n", ?_⟩,
      ⟨c!"The following problem occurred on line " ++ intStr n ++ c!" of the kickstart file:\n\n", c!"\n", rfl⟩⟩
    simp only [List.append_assoc]

/-- C53: the line number shown identifies the line: two errors with the same non-empty message
and the same text have the same line. -/
theorem C53_line_identified (msg : Str) (n m : Int)
    (h : (mkKickstartError (.text msg) (some n) true).str = (mkKickstartError (.text msg) (some m) true).str) :
    n = m := by
  simp only [mkKickstartError, KsErrObj.str, formatErrorMessage, if_true] at h
  apply intStr_injective
  split at h
  · simp only [List.append_assoc] at h
    have := List.append_cancel_left h
    exact List.append_cancel_right this
  · simp only [List.append_assoc] at h
    have := List.append_cancel_left h
    exact List.append_cancel_right this

/-- C53: without a line number, or without formatting, the text is the bare message. -/
theorem C53_bare (msg : Str) (lineno : Option Int) (formatting : Bool)
    (h : lineno = none ∨ formatting = false) :
    (mkKickstartError (.text msg) lineno formatting).str = msg := by
  unfold mkKickstartError KsErrObj.str
  simp only
  cases lineno with
  | none => rfl
  | some n =>
    rcases h with h | h
    · cases h
    · subst h; rfl

/-- C53: the old calling convention `KickstartError(formatErrorMsg(lineno, msg))` gives the same
object as the new one, whatever `lineno` keyword is passed along. -/
theorem C53_old_convention (msg : Str) (lineno other : Option Int) (formatting : Bool) :
    mkKickstartError (formatErrorMsg lineno msg) other formatting =
      mkKickstartError (.text msg) lineno formatting := rfl

example : (mkKickstartError (.text c!"bad") (some 7) true).str =
    c!"The following problem occurred on line 7 of the kickstart file:\n\nbad\n" := by decide +kernel

end Ks
