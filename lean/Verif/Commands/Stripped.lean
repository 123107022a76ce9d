import Verif.Commands.ReadBackLogic
/-!
# Texts that are stripped and extended

Some `__str__` methods take the text of the class they inherit from, strip it, append options and a
newline.  `Lined` says that such a text is that of a template followed by a newline, or nothing.
-/
namespace Ks

/-! ## `strip` -/

theorem noSpaceEnd_append {a b : Str} (ha : NoSpaceEnd a) (hb : NoSpaceEnd b) : NoSpaceEnd (a ++ b) := by
  intro c hc
  cases b with
  | nil => rw [List.append_nil] at hc; exact ha c hc
  | cons x t =>
    rw [List.getLast?_append] at hc
    cases h : (x :: t).getLast? with
    | none => simp at h
    | some y => rw [h] at hc; simp at hc; subst hc; exact hb y (by rw [h]; rfl)

theorem noSpaceEnd_right {a b : Str} (h0 : b ≠ []) (hb : NoSpaceEnd b) : NoSpaceEnd (a ++ b) := by
  intro c hc
  rw [List.getLast?_append] at hc
  cases h : b.getLast? with
  | none => simp at h; exact absurd h h0
  | some y => rw [h] at hc; simp at hc; subst hc; exact hb y (by rw [h]; rfl)

theorem noSpaceEnd_nil : NoSpaceEnd [] := by intro c hc; cases hc

theorem noSpaceEnd_joinWith {sep : Str} (hs : NoSpaceEnd sep) : ∀ {l : List Str}, (∀ x ∈ l, NoSpaceEnd x) → NoSpaceEnd (joinWith sep l)
  | [], _ => noSpaceEnd_nil
  | [x], h => h x (by simp)
  | x :: y :: t, h => by
    rw [joinWith]
    exact noSpaceEnd_append (noSpaceEnd_append (h x (by simp)) hs) (noSpaceEnd_joinWith hs fun z hz => h z (List.mem_cons_of_mem _ hz))

theorem rstrip_newline {t : Str} (h : NoSpaceEnd t) : rstrip (t ++ c!"\n") = t := by
  unfold rstrip
  rw [List.reverse_append]
  have e : (c!"\n" : Str).reverse ++ t.reverse = '\n' :: t.reverse := rfl
  rw [e, List.dropWhile_cons, if_pos (by decide)]
  have : t.reverse.dropWhile isSpace = t.reverse := by
    cases hr : t.reverse with
    | nil => rfl
    | cons x u =>
      rw [List.dropWhile_cons, if_neg]
      rw [h x (by rw [List.getLast?_eq_head?_reverse, hr]; rfl)]
      decide
  rw [this, List.reverse_reverse]

theorem strip_newline {t : Str} (h : NoSpaceEnd t) {c : Char} {u : Str} (e : t = c :: u) (hc : isSpace c = false) : strip (t ++ c!"\n") = t := by
  unfold strip
  have : lstrip (t ++ c!"\n") = t ++ c!"\n" := by
    subst e
    unfold lstrip
    rw [List.cons_append, List.dropWhile_cons, if_neg (by rw [hc]; decide)]
  rw [this, rstrip_newline h]

/-! ## Templates -/

/-- The values at the end of the text have no white space at their end. -/
def EndsOf (ends pos : List Str) (d : Ns) : Prop := (∀ k ∈ ends, (d.getD k).Ends) ∧ ∀ k ∈ pos, (d.getD k).Present

/-- The text of the piece does not end with white space. -/
def Frag.endOk (ends : List Str) : Frag → Bool
  | .lit l => decide (NoSpaceEnd l)
  | .fld k => ends.contains k
  | .join sep k => ends.contains k && decide (NoSpaceEnd sep)
  | _ => false

theorem Frag.endOk_sound {ends pos : List Str} {d : Ns} (hd : EndsOf ends pos d) {f : Frag} (h : f.endOk ends = true) : NoSpaceEnd (f.render d) := by
  cases f <;> simp only [Frag.endOk, decide_eq_true_eq, Bool.and_eq_true, List.contains_eq_mem, Bool.false_eq_true] at h
  · exact h
  · exact (hd.1 _ h).1
  · exact noSpaceEnd_joinWith h.2 (hd.1 _ h.1).2

/-- The text of the pieces does not end with white space. -/
def fragsEnd' (ends : List Str) (l : List Frag) : Bool :=
  match l.reverse with
  | [.lit t] => !t.isEmpty && decide (NoSpaceEnd t)
  | f :: .lit t :: _ => f.endOk ends && !t.isEmpty && decide (NoSpaceEnd t)
  | .lit t :: _ => !t.isEmpty && decide (NoSpaceEnd t)
  | _ => false

/-- The text of the pieces does not end with white space, or ends with a value that is not empty. -/
def fragsEnd (ends pos : List Str) (l : List Frag) : Bool :=
  fragsEnd' ends l || match l.reverse with
    | .fld k :: _ => ends.contains k && pos.contains k
    | _ => false

theorem fragsEnd_sound {ends pos : List Str} {d : Ns} (hd : EndsOf ends pos d) {l : List Frag} (h : fragsEnd ends pos l = true) :
    NoSpaceEnd (l.map (Frag.render d)).flatten := by
  unfold fragsEnd fragsEnd' at h
  rw [← List.reverse_reverse l]
  generalize l.reverse = r at h
  rw [Bool.or_eq_true] at h
  rcases h with h | h
  case inr =>
    split at h
    · simp only [Bool.and_eq_true, List.contains_eq_mem, decide_eq_true_eq] at h
      simp only [List.reverse_cons, List.map_append, List.map_cons, List.map_nil, List.flatten_append, List.flatten_cons, List.flatten_nil, List.append_nil, Frag.render]
      refine noSpaceEnd_right ?_ (hd.1 _ h.1).1
      have := hd.2 _ h.2
      unfold Val.Present at this
      split at this
      · simpa [*, Val.fmt] using this
      · exact this.elim
    · cases h
  split at h
  · simp only [Bool.and_eq_true, Bool.not_eq_true', List.isEmpty_eq_false_iff, decide_eq_true_eq] at h
    simpa [Frag.render] using h.2
  · simp only [Bool.and_eq_true, Bool.not_eq_true', List.isEmpty_eq_false_iff, decide_eq_true_eq] at h
    simp only [List.reverse_cons, List.map_append, List.map_cons, List.map_nil, List.flatten_append, List.flatten_cons, List.flatten_nil, List.append_nil]
    exact noSpaceEnd_append (noSpaceEnd_right h.1.2 h.2) (Frag.endOk_sound hd h.1.1)
  · simp only [Bool.and_eq_true, Bool.not_eq_true', List.isEmpty_eq_false_iff, decide_eq_true_eq] at h
    simp only [List.reverse_cons, List.map_append, List.map_cons, List.map_nil, List.flatten_append, List.flatten_cons, List.flatten_nil, List.append_nil]
    exact noSpaceEnd_right h.1 h.2
  · cases h

/-- The text begins with a character that is not white space under the condition `g`, it does not end
with white space, and there is none if `g` does not hold. -/
def linedOk (ends pos : List Str) (g : Cond) (o : Out) : Bool :=
  (match o with
    | (c, .lit (x :: _) :: _) :: _ => g.follows c && !isSpace x
    | _ => false) && o.all fun p => p.1.follows g && fragsEnd ends pos p.2

section
variable {ends pos : List Str} {g : Cond} {o : Out} {d : Ns}

theorem linedOk_off (h : linedOk ends pos g o = true) (hg : g.eval d = false) : o.render d = [] := by
  unfold linedOk at h
  rw [Bool.and_eq_true] at h
  replace h := h.2
  unfold Out.render
  induction o with
  | nil => rfl
  | cons p t ih =>
    simp only [List.all_cons, Bool.and_eq_true] at h
    rw [List.map_cons, List.flatten_cons, ih h.2, List.append_nil, pieceText, if_neg]
    intro hp
    rw [follows_sound hp h.1.1] at hg
    cases hg

theorem linedOk_end (h : linedOk ends pos g o = true) (hd : EndsOf ends pos d) : NoSpaceEnd (o.render d) := by
  unfold linedOk at h
  rw [Bool.and_eq_true] at h
  replace h := h.2
  unfold Out.render
  induction o with
  | nil => exact noSpaceEnd_nil
  | cons p t ih =>
    simp only [List.all_cons, Bool.and_eq_true] at h
    rw [List.map_cons, List.flatten_cons]
    refine noSpaceEnd_append ?_ (ih h.2)
    unfold pieceText
    split
    · exact fragsEnd_sound hd h.1.2
    · exact noSpaceEnd_nil

theorem linedOk_head (h : linedOk ends pos g o = true) (hg : g.eval d = true) : ∃ c u, o.render d = c :: u ∧ isSpace c = false := by
  unfold linedOk at h
  rw [Bool.and_eq_true] at h
  have h := h.1
  split at h
  · rename_i c x t fs ps _
    simp only [Bool.and_eq_true, Bool.not_eq_true'] at h
    refine ⟨x, t ++ (fs.map (Frag.render d)).flatten ++ (ps.map (pieceText d)).flatten, ?_, h.2⟩
    rw [Out.render, List.map_cons, List.flatten_cons, pieceText, if_pos (follows_sound hg h.1)]
    simp only [List.map_cons, List.flatten_cons, Frag.render, List.cons_append]
  · cases h

/-- The text is that of the template with a newline, or nothing. -/
structure Lined (ends pos : List Str) (f : Ns → Str) (g : Cond) (o : Out) : Prop where
  ok : linedOk ends pos g o = true
  on : ∀ d, EndsOf ends pos d → g.eval d = true → f d = o.render d ++ c!"\n"
  off : ∀ d, EndsOf ends pos d → g.eval d = false → f d = []

theorem render_append (a b : Out) (d : Ns) : Out.render (a ++ b) d = a.render d ++ b.render d := by
  simp [Out.render]

theorem render_guard (c : Cond) (o : Out) (d : Ns) : (Out.guard c o).render d = if c.eval d then o.render d else [] := by
  unfold Out.render Out.guard
  induction o with
  | nil => simp
  | cons p t ih =>
    simp only [List.map_cons, List.flatten_cons, ih, pieceText, Cond.eval]
    by_cases hc : c.eval d = true <;> simp [hc]

theorem render_one (c : Cond) (l : List Frag) (d : Ns) : Out.render [(c, l)] d = if c.eval d then (l.map (Frag.render d)).flatten else [] := by
  simp [Out.render, pieceText]

theorem Lined.render {f : Ns → Str} (L : Lined ends pos f g o) (hd : EndsOf ends pos d) : f d = Out.render (o ++ [(g, [.lit c!"\n"])]) d := by
  rw [render_append, render_one]
  cases hg : g.eval d with
  | true => rw [L.on d hd hg]; simp [Frag.render]
  | false => rw [L.off d hd hg, linedOk_off L.ok hg]; simp

theorem Lined.isEmpty {f : Ns → Str} (L : Lined ends pos f g o) (hd : EndsOf ends pos d) : (f d).isEmpty = !g.eval d := by
  cases hg : g.eval d with
  | true => rw [L.on d hd hg]; cases o.render d <;> rfl
  | false => rw [L.off d hd hg]; rfl

theorem Lined.rstrip {f : Ns → Str} (L : Lined ends pos f g o) (hd : EndsOf ends pos d) (hg : g.eval d = true) : Ks.rstrip (f d) = o.render d := by
  rw [L.on d hd hg, rstrip_newline (linedOk_end L.ok hd)]

theorem Lined.strip {f : Ns → Str} (L : Lined ends pos f g o) (hd : EndsOf ends pos d) (hg : g.eval d = true) : Ks.strip (f d) = o.render d := by
  obtain ⟨c, u, e, hc⟩ := linedOk_head (d := d) L.ok hg
  rw [L.on d hd hg, strip_newline (linedOk_end L.ok hd) e hc]

/-- A template that ends with a newline. -/
theorem Lined.base (ok : linedOk ends pos g o = true) {f : Ns → Str} (hf : ∀ d, f d = Out.render (o ++ [(g, [.lit c!"\n"])]) d) : Lined ends pos f g o := by
  refine ⟨ok, fun d _ hg => ?_, fun d _ hg => ?_⟩
  · rw [hf, render_append, render_one, if_pos hg]; simp [Frag.render]
  · rw [hf, render_append, render_one, hg, linedOk_off ok hg]; rfl

/-- The pieces under a condition. -/
def Out.under (c : Cond) (o : Out) : Out := o.map fun x => (if x.1 = .tt then c else .and c x.1, x.2)

theorem render_under (c : Cond) (o : Out) (d : Ns) : (Out.under c o).render d = if c.eval d then o.render d else [] := by
  unfold Out.render Out.under
  induction o with
  | nil => simp
  | cons p t ih =>
    simp only [List.map_cons, List.flatten_cons, ih, pieceText]
    by_cases ht : p.1 = .tt
    · by_cases hc : c.eval d = true <;> simp [hc, ht, Cond.eval]
    · by_cases hc : c.eval d = true <;> simp [hc, ht, Cond.eval]

/-- The text is stripped and extended. -/
theorem Lined.step {f f' : Ns → Str} (L : Lined ends pos f g o) (c : Cond) (o2 : Out)
    (ok : linedOk ends pos g (o ++ Out.under (.and g c) o2) = true)
    (hf : ∀ d, EndsOf ends pos d → f' d = if g.eval d && c.eval d then (o.render d) ++ o2.render d ++ c!"\n" else f d) :
    Lined ends pos f' g (o ++ Out.under (.and g c) o2) := by
  refine ⟨ok, fun d hd hg => ?_, fun d hd hg => ?_⟩
  · rw [hf d hd, render_append, render_under, Cond.eval, hg]
    cases hc : c.eval d with
    | true => simp
    | false => rw [L.on d hd hg]; simp
  · rw [hf d hd, hg, L.off d hd hg]; rfl

/-- `if s and c: s = s.rstrip() + …`. -/
theorem Lined.step_rstrip {f f' : Ns → Str} (L : Lined ends pos f g o) (c : Cond) (o2 : Out)
    (ok : linedOk ends pos g (o ++ Out.under (.and g c) o2) = true)
    (hf : ∀ d, f' d = if !(f d).isEmpty && c.eval d then Ks.rstrip (f d) ++ o2.render d ++ c!"\n" else f d) :
    Lined ends pos f' g (o ++ Out.under (.and g c) o2) := by
  refine L.step c o2 ok fun d hd => ?_
  rw [hf, L.isEmpty hd, Bool.not_not]
  cases hg : g.eval d with
  | true => rw [L.rstrip hd hg]
  | false => simp

/-- `if g and c: s = s.rstrip() + …`. -/
theorem Lined.step_rstrip' {f f' : Ns → Str} (L : Lined ends pos f g o) (c : Cond) (o2 : Out)
    (ok : linedOk ends pos g (o ++ Out.under (.and g c) o2) = true)
    (hf : ∀ d, f' d = if g.eval d && c.eval d then Ks.rstrip (f d) ++ o2.render d ++ c!"\n" else f d) :
    Lined ends pos f' g (o ++ Out.under (.and g c) o2) := by
  refine L.step c o2 ok fun d hd => ?_
  rw [hf]
  cases hg : g.eval d with
  | true => rw [L.rstrip hd hg]
  | false => simp

/-- `if g and c: s = s.strip() + …`. -/
theorem Lined.step_strip {f f' : Ns → Str} (L : Lined ends pos f g o) (c : Cond) (o2 : Out)
    (ok : linedOk ends pos g (o ++ Out.under (.and g c) o2) = true)
    (hf : ∀ d, f' d = if g.eval d && c.eval d then Ks.strip (f d) ++ o2.render d ++ c!"\n" else f d) :
    Lined ends pos f' g (o ++ Out.under (.and g c) o2) := by
  refine L.step c o2 ok fun d hd => ?_
  rw [hf]
  cases hg : g.eval d with
  | true => rw [L.strip hd hg]
  | false => simp

theorem render_tt (l : List Frag) (d : Ns) : Out.render [(.tt, l)] d = (l.map (Frag.render d)).flatten := by
  simp [Out.render, pieceText, Cond.eval]

theorem render_tt_cons (l : List Frag) (c : Cond) (m : List Frag) (d : Ns) :
    Out.render [(.tt, l), (c, m)] d = (l.map (Frag.render d)).flatten ++ (if c.eval d then (m.map (Frag.render d)).flatten else []) := by
  simp [Out.render, pieceText, Cond.eval]

end

/-- Closes the equation between a `__str__` method and its step. -/
macro "lined_eq" f:ident : tactic => `(tactic| (
  intro d
  unfold $f
  simp only [render_tt, render_tt_cons, List.map_cons, List.map_nil, List.flatten_cons, List.flatten_nil, List.append_nil, Frag.render, List.append_assoc, Cond.eval]
  first | done | rfl | (repeat' split) <;> simp_all))

end Ks
