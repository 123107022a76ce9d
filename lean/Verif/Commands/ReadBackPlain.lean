import Verif.Commands.ReadBackLemmas
/-!
# Objects whose values can be written

`Plain` says that the values of an object are words; it does not depend on how the object is written.
`plainCheck` is a check of a template, which makes every plain object safe for it.
-/
namespace Ks

/-! ## Specification -/

/-- A string that the shell lexer reads as it stands, and that looks neither like an option nor like
the name of a device file. -/
def WordLike (s : Str) : Prop := (∀ c ∈ s, BareChar true c) ∧ startsWith s c!"-" = false ∧ startsWith s c!"/dev/" = false

/-- All strings in the value are words. -/
def Val.Words : Val → Prop
  | .str s => WordLike s
  | .list l => ∀ x ∈ l, WordLike x
  | .pairs l => ∀ x ∈ l, '\\' ∉ x.1 ∧ '\\' ∉ x.2
  | _ => True

/-- All strings in the value can stand between double quotes. -/
def Val.Quotable : Val → Prop
  | .str s => '"' ∉ s ∧ '\\' ∉ s ∧ Ks.startsWith s c!"/dev/" = false
  | .list l => ∀ x ∈ l, '"' ∉ x ∧ '\\' ∉ x
  | .pairs l => ∀ x ∈ l, '\\' ∉ x.1 ∧ '\\' ∉ x.2
  | _ => True

/-- The value is a string that is not empty. -/
def Val.Present : Val → Prop
  | .str s => s ≠ []
  | _ => False

/-- The value is a list that is not empty, of strings that are not empty. -/
def Val.Filled : Val → Prop
  | .list l => l ≠ [] ∧ ∀ x ∈ l, x ≠ []
  | _ => False

/-- The value is a string or `None`. -/
def Val.Maybe : Val → Prop
  | .str _ => True
  | .none => True
  | _ => False

/-- The values of the object are words, except that those of the attributes `loose` may be any text
without double quotes and backslashes; the attributes `pos` and `lst` are not empty. -/
structure Plain (pos lst loose : List Str) (d : Ns) : Prop where
  words : ∀ x ∈ d, x.1 ∉ loose → x.2.Words
  quotable : ∀ x ∈ d, x.1 ∈ loose → x.2.Quotable
  present : ∀ k ∈ pos, (d.getD k).Present
  filled : ∀ k ∈ lst, (d.getD k).Filled

instance (c : Char) : Decidable (BareChar true c) := by unfold BareChar; infer_instance
instance (s : Str) : Decidable (WordLike s) := by unfold WordLike; infer_instance
instance (v : Val) : Decidable v.Words := by cases v <;> (simp only [Val.Words]; infer_instance)
instance (v : Val) : Decidable v.Quotable := by cases v <;> (simp only [Val.Quotable]; infer_instance)
instance (v : Val) : Decidable v.Present := by cases v <;> (simp only [Val.Present]; infer_instance)
instance (v : Val) : Decidable v.Filled := by cases v <;> (simp only [Val.Filled]; infer_instance)
instance (v : Val) : Decidable v.Maybe := by cases v <;> (simp only [Val.Maybe]; infer_instance)
instance (pos lst loose : List Str) (d : Ns) : Decidable (Plain pos lst loose d) :=
  decidable_of_iff ((∀ x ∈ d, x.1 ∉ loose → x.2.Words) ∧ (∀ x ∈ d, x.1 ∈ loose → x.2.Quotable) ∧ (∀ k ∈ pos, (d.getD k).Present) ∧ ∀ k ∈ lst, (d.getD k).Filled)
    ⟨fun ⟨a, b, c, e⟩ => ⟨a, b, c, e⟩, fun ⟨a, b, c, e⟩ => ⟨a, b, c, e⟩⟩

/-! ## The check -/

/-- The field can stand outside quotes. -/
def Frag.barePlain (loose : List Str) : Frag → Bool
  | .fld k | .low k | .up k => !loose.contains k
  | .join sep k => !loose.contains k && decide (∀ x ∈ sep, BareChar true x)
  | _ => false

/-- The field can stand between double quotes. -/
def Frag.quotedPlain (loose : List Str) : Frag → Bool
  | .fld _ | .esc _ | .team _ => true
  | .low k | .up k => !loose.contains k
  | .join sep _ => decide (∀ x ∈ sep, x ≠ '"' ∧ x ≠ '\\')
  | _ => false

/-- The text of the field is not empty. -/
def Frag.presentPlain (pos lst : List Str) : Frag → Bool
  | .fld k | .low k | .up k => pos.contains k
  | .join _ k => lst.contains k
  | _ => false

def symPlain (pos lst loose : List Str) : SymSt → Sym → Bool
  | .space, .fr f => f.barePlain loose && f.presentPlain pos lst
  | .word _, .fr f => f.barePlain loose
  | .quote q _, .fr f => if q = '"' then f.quotedPlain loose else f.isFld && !loose.contains f.key
  | _, _ => true

def plainSyms (pos lst loose : List Str) : SymSt → List Sym → Bool
  | _, [] => true
  | st, s :: t => symPlain pos lst loose st s && match symStep st s with
    | some (_, st) => plainSyms pos lst loose st t
    | none => true

/-- The word does not start with a dash. -/
def posPlain (pos lst loose : List Str) : SymArg → Bool
  | .opt _ _ => true
  | .pos (.ch c :: _) => c != '-'
  | .pos (.fr f :: _) => match f with
    | .fld k => pos.contains k && !loose.contains k
    | .join _ k => lst.contains k && !loose.contains k
    | _ => false
  | .pos [] => true

/-- The attributes that are not empty under the condition. -/
def underCond (pos opt : List Str) (c : Cond) : List Str := pos ++ opt.filter fun k => c.conj.contains (.tru k)

def plainCheck (pos opt lst loose : List Str) (o : Out) : Bool :=
  o.all (fun x => plainSyms (underCond pos opt x.1) lst loose .space (symsOf x.2)) &&
  match outArgs o with
  | none => true
  | some l => l.all fun x => x.2.all (posPlain (underCond pos opt x.1) lst loose)

/-! ## Soundness -/

theorem getD_mem (d : Ns) (k : Str) : d.getD k = .none ∨ (k, d.getD k) ∈ d := by
  unfold Ns.getD
  cases h : d.get k with
  | none => exact .inl rfl
  | some v =>
    right
    exact lookup_mem_pair h

theorem Plain.val {pos lst loose : List Str} {d : Ns} (h : Plain pos lst loose d) {k : Str} (hk : k ∉ loose) : (d.getD k).Words := by
  rcases getD_mem d k with e | e
  · rw [e]; trivial
  · exact h.words _ e hk

theorem Plain.quoted {pos lst loose : List Str} {d : Ns} (h : Plain pos lst loose d) {k : Str} (hk : k ∈ loose) : (d.getD k).Quotable := by
  rcases getD_mem d k with e | e
  · rw [e]; trivial
  · exact h.quotable _ e hk

theorem bare_digit {c : Char} (h : isDigit c = true ∨ c = '-') : BareChar true c := by
  rcases h with h | rfl
  · simp only [isDigit, Bool.and_eq_true, decide_eq_true_eq] at h
    refine ⟨?_, ?_, ?_, fun _ => ?_⟩
    · simp only [shWhite, Bool.or_eq_false_iff, decide_eq_false_iff_not]
      refine ⟨⟨⟨?_, ?_⟩, ?_⟩, ?_⟩ <;> (rintro rfl; revert h; decide)
    · simp only [shQuote, Bool.or_eq_false_iff, decide_eq_false_iff_not]
      refine ⟨?_, ?_⟩ <;> (rintro rfl; revert h; decide)
    · rintro rfl; revert h; decide
    · rintro rfl; revert h; decide
  · decide

theorem fmt_bare {v : Val} (h : v.Words) : ∀ c ∈ v.fmt, BareChar true c := by
  cases v with
  | none => decide
  | bool b => cases b <;> decide
  | int n => intro c hc; exact bare_digit (intStr_chars n c hc)
  | str s => exact h.1
  | list l => simp [Val.fmt]
  | pairs l => simp [Val.fmt]

theorem bare_lower {c : Char} (h : BareChar true c) : BareChar true (lowerC c) := by
  unfold lowerC
  split
  · rename_i hc
    have : ∀ n, n < 26 → BareChar true (Char.ofNat (65 + n + 32)) := by decide
    have h1 : ('A' : Char).toNat = 65 := rfl
    have h2 : ('Z' : Char).toNat = 90 := rfl
    rw [h1, h2] at hc
    have := this (c.toNat - 65) (by omega)
    rw [show 65 + (c.toNat - 65) + 32 = c.toNat + 32 by omega] at this
    exact this
  · exact h

theorem bare_upper {c : Char} (h : BareChar true c) : BareChar true (upperC c) := by
  unfold upperC
  split
  · rename_i hc
    have : ∀ n, n < 26 → BareChar true (Char.ofNat (97 + n - 32)) := by decide
    have h1 : ('a' : Char).toNat = 97 := rfl
    have h2 : ('z' : Char).toNat = 122 := rfl
    rw [h1, h2] at hc
    have := this (c.toNat - 97) (by omega)
    rw [show 97 + (c.toNat - 97) - 32 = c.toNat - 32 by omega] at this
    exact this
  · exact h

theorem mem_joinWith {sep : Str} {c : Char} : ∀ {l : List Str}, c ∈ joinWith sep l → c ∈ sep ∨ ∃ x ∈ l, c ∈ x
  | [], h => by cases h
  | [x], h => .inr ⟨x, List.mem_singleton.2 rfl, h⟩
  | x :: y :: t, h => by
    simp only [joinWith, List.mem_append] at h
    rcases h with (h | h) | h
    · exact .inr ⟨x, by simp, h⟩
    · exact .inl h
    · rcases mem_joinWith h with h | ⟨z, hz, h⟩
      · exact .inl h
      · exact .inr ⟨z, List.mem_cons_of_mem _ hz, h⟩

theorem items_words {v : Val} (h : v.Words) : ∀ x ∈ v.items, WordLike x := by
  cases v <;> first | exact h | simp [Val.items]

theorem bare_not_quote {c : Char} (h : BareChar true c) : c ≠ '"' ∧ c ≠ '\\' ∧ c ≠ '\'' := by
  obtain ⟨-, h, h3, -⟩ := h
  refine ⟨?_, h3, ?_⟩ <;> (rintro rfl; revert h; decide)

theorem barePlain_sound {pos lst loose : List Str} {d : Ns} (hp : Plain pos lst loose d) {f : Frag} (h : f.barePlain loose = true) :
    ∀ x ∈ f.render d, BareChar true x := by
  cases f with
  | fld k =>
    simp only [Frag.barePlain, Bool.not_eq_true', List.contains_eq_mem, decide_eq_false_iff_not] at h
    exact fmt_bare (hp.val h)
  | low k =>
    simp only [Frag.barePlain, Bool.not_eq_true', List.contains_eq_mem, decide_eq_false_iff_not] at h
    intro x hx
    simp only [Frag.render, lower, List.mem_map] at hx
    obtain ⟨y, hy, rfl⟩ := hx
    exact bare_lower (fmt_bare (hp.val h) y hy)
  | up k =>
    simp only [Frag.barePlain, Bool.not_eq_true', List.contains_eq_mem, decide_eq_false_iff_not] at h
    intro x hx
    simp only [Frag.render, upper, List.mem_map] at hx
    obtain ⟨y, hy, rfl⟩ := hx
    exact bare_upper (fmt_bare (hp.val h) y hy)
  | join sep k =>
    simp only [Frag.barePlain, Bool.and_eq_true, Bool.not_eq_true', List.contains_eq_mem, decide_eq_false_iff_not, decide_eq_true_eq] at h
    intro x hx
    rcases mem_joinWith hx with hx | ⟨y, hy, hx⟩
    · exact h.2 x hx
    · exact (items_words (hp.val h.1) y hy).1 x hx
  | _ => cases h

theorem bareOk_sound {pos lst loose : List Str} {d : Ns} (hp : Plain pos lst loose d) {f : Frag} (h : f.barePlain loose = true) : f.BareOk d := by
  cases f with
  | joinQ k => cases h
  | _ => exact barePlain_sound hp h

theorem present_fmt {v : Val} (h : v.Present) : v.fmt ≠ [] := by
  cases v with
  | str s => exact h
  | _ => cases h

theorem filled_join {v : Val} (h : v.Filled) (sep : Str) : ∃ x t, x ∈ v.items ∧ x ≠ [] ∧ joinWith sep v.items = x ++ t := by
  cases v with
  | list l =>
    match l, h with
    | x :: [], h => exact ⟨x, [], List.mem_cons_self, h.2 x List.mem_cons_self, by simp [Val.items, joinWith]⟩
    | x :: y :: t, h => exact ⟨x, _, List.mem_cons_self, h.2 x List.mem_cons_self, by simp only [Val.items, joinWith, List.append_assoc]; rfl⟩
    | [], h => exact absurd rfl h.1
  | _ => cases h

theorem present_sound {pos lst loose : List Str} {d : Ns} (hp : Plain pos lst loose d) {f : Frag} (h : f.presentPlain pos lst = true) : f.render d ≠ [] := by
  cases f with
  | fld k => exact present_fmt (hp.present k (by simpa [Frag.presentPlain] using h))
  | low k =>
    have := present_fmt (hp.present k (by simpa [Frag.presentPlain] using h))
    simpa [Frag.render, lower] using this
  | up k =>
    have := present_fmt (hp.present k (by simpa [Frag.presentPlain] using h))
    simpa [Frag.render, upper] using this
  | join sep k =>
    obtain ⟨x, t, -, hx, e⟩ := filled_join (hp.filled k (by simpa [Frag.presentPlain] using h)) sep
    simp only [Frag.render, e]
    simp [hx]
  | _ => cases h

theorem quotedOk_sound {pos lst loose : List Str} {d : Ns} (hp : Plain pos lst loose d) {f : Frag} (h : f.quotedPlain loose = true) : f.QuotedOk d := by
  have hfmt : ∀ k, ∀ c ∈ (d.getD k).fmt, c ≠ '"' ∧ c ≠ '\\' := by
    intro k c hc
    by_cases hk : k ∈ loose
    · have := hp.quoted hk
      cases hv : d.getD k with
      | str s =>
        rw [hv] at this hc
        exact ⟨fun e => this.1 (e ▸ hc), fun e => this.2.1 (e ▸ hc)⟩
      | int n => rw [hv] at hc; have := bare_not_quote (bare_digit (intStr_chars n c hc)); exact ⟨this.1, this.2.1⟩
      | none => rw [hv] at hc; revert c; decide
      | bool b => rw [hv] at hc; revert c; cases b <;> decide
      | list l => rw [hv] at hc; cases hc
      | pairs l => rw [hv] at hc; cases hc
    · have := bare_not_quote (fmt_bare (hp.val hk) c hc); exact ⟨this.1, this.2.1⟩
  cases f with
  | fld k => exact hfmt k
  | esc k => exact fun hc => (hfmt k _ hc).2 rfl
  | low k =>
    intro x hx
    simp only [Frag.quotedPlain, Bool.not_eq_true', List.contains_eq_mem, decide_eq_false_iff_not] at h
    have := bare_not_quote (barePlain_sound hp (f := .low k) (by simp [Frag.barePlain, h]) x hx)
    exact ⟨this.1, this.2.1⟩
  | up k =>
    intro x hx
    simp only [Frag.quotedPlain, Bool.not_eq_true', List.contains_eq_mem, decide_eq_false_iff_not] at h
    have := bare_not_quote (barePlain_sound hp (f := .up k) (by simp [Frag.barePlain, h]) x hx)
    exact ⟨this.1, this.2.1⟩
  | join sep k =>
    intro x hx
    simp only [Frag.quotedPlain, decide_eq_true_eq] at h
    rcases mem_joinWith hx with hx | ⟨y, hy, hx⟩
    · exact h x hx
    · by_cases hk : k ∈ loose
      · have := hp.quoted hk
        cases hv : d.getD k with
        | list l =>
          rw [hv] at this hy
          have := this y hy
          exact ⟨fun e => this.1 (e ▸ hx), fun e => this.2 (e ▸ hx)⟩
        | _ => rw [hv] at hy; cases hy
      · have := bare_not_quote ((items_words (hp.val hk) y hy).1 x hx)
        exact ⟨this.1, this.2.1⟩
  | team k =>
    intro hx
    simp only [Frag.meant] at hx
    rcases mem_joinWith hx with hx | ⟨y, hy, hx⟩
    · revert hx; decide
    · obtain ⟨p, hpm, rfl⟩ := List.mem_map.1 hy
      have hpr : '\\' ∉ p.1 ∧ '\\' ∉ p.2 := by
        by_cases hk : k ∈ loose
        · have := hp.quoted hk
          cases hv : d.getD k with
          | pairs l => rw [hv] at this hpm; exact this p hpm
          | _ => rw [hv] at hpm; cases hpm
        · have := hp.val hk
          cases hv : d.getD k with
          | pairs l => rw [hv] at this hpm; exact this p hpm
          | _ => rw [hv] at hpm; cases hpm
      simp only [List.mem_append] at hx
      rcases hx with hx | hx
      · exact hpr.1 hx
      · split at hx
        · cases hx
        · simp only [List.mem_append] at hx
          rcases hx with (hx | hx) | hx
          · revert hx; decide
          · exact hpr.2 hx
          · revert hx; decide
  | _ => cases h

theorem symPlain_sound {pos lst loose : List Str} {d : Ns} (hp : Plain pos lst loose d) {st : SymSt} {s : Sym} (h : symPlain pos lst loose st s = true) :
    symSafe d st s := by
  cases s with
  | ch c => cases st <;> trivial
  | fr f =>
    cases st with
    | space =>
      simp only [symPlain, Bool.and_eq_true] at h
      exact ⟨bareOk_sound hp h.1, present_sound hp h.2⟩
    | word w => exact bareOk_sound hp h
    | quote q w =>
      simp only [symPlain] at h
      simp only [symSafe]
      split at h
      · rename_i e; rw [if_pos e]; exact quotedOk_sound hp h
      · rename_i e
        rw [if_neg e]
        simp only [Bool.and_eq_true, Bool.not_eq_true', List.contains_eq_mem, decide_eq_false_iff_not] at h
        intro hx
        have hb : f.barePlain loose = true := by
          cases f with
          | fld k => simpa [Frag.barePlain, Frag.key] using h.2
          | _ => exact absurd h.1 (by simp [Frag.isFld])
        exact (bare_not_quote (barePlain_sound hp hb _ hx)).2.2 rfl
    | comment => trivial

theorem plainSyms_sound {pos lst loose : List Str} {d : Ns} (hp : Plain pos lst loose d) : ∀ {l : List Sym} {st : SymSt}, plainSyms pos lst loose st l = true →
    SafeSyms d st l
  | [], _, _ => trivial
  | s :: t, st, h => by
    simp only [plainSyms, Bool.and_eq_true] at h
    refine ⟨symPlain_sound hp h.1, ?_⟩
    have h2 := h.2
    cases e : symStep st s with
    | none => trivial
    | some x =>
      rw [e] at h2
      exact plainSyms_sound hp h2

theorem startsWith_dash_append {a b : Str} (ha : a ≠ []) (h : startsWith a c!"-" = false) : startsWith (a ++ b) c!"-" = false := by
  cases a with
  | nil => exact absurd rfl ha
  | cons c t => simpa [startsWith, List.isPrefixOf] using h

theorem Plain.under {pos opt lst loose : List Str} {d : Ns} (h : Plain pos lst loose d) (ho : ∀ k ∈ opt, (d.getD k).Maybe) {c : Cond} (hc : c.eval d = true) :
    Plain (underCond pos opt c) lst loose d := by
  refine ⟨h.words, h.quotable, fun k hk => ?_, h.filled⟩
  simp only [underCond, List.mem_append, List.mem_filter, List.contains_eq_mem, decide_eq_true_eq] at hk
  rcases hk with hk | ⟨hk, hcc⟩
  · exact h.present k hk
  · have ht : (d.getD k).truthy = true := (eval_conj d c).1 hc _ hcc
    have hm := ho k hk
    cases hv : d.getD k with
    | str s => rw [hv] at ht; rintro rfl; simp [Val.truthy] at ht
    | none => rw [hv] at ht; cases ht
    | _ => rw [hv] at hm; cases hm

/-- Plain objects can be written. -/
theorem plain_safe {pos opt lst loose : List Str} {o : Out} {d : Ns} (hc : plainCheck pos opt lst loose o = true) (hp' : Plain pos lst loose d)
    (ho : ∀ k ∈ opt, (d.getD k).Maybe) : o.Safe d ∧ DashFree o d := by
  unfold plainCheck at hc
  simp only [Bool.and_eq_true, List.all_eq_true] at hc
  refine ⟨fun x hx hcx => plainSyms_sound (hp'.under ho hcx) (hc.1 x hx), ?_⟩
  have h2 := hc.2
  unfold DashFree
  split
  · trivial
  rename_i l hl
  rw [hl] at h2
  simp only [List.all_eq_true] at h2
  intro a ha
  obtain ⟨x, hx, hcx, hax⟩ := mem_firedArgs.1 ha
  have hp := hp'.under ho hcx
  have := h2 x hx a hax
  cases a with
  | opt _ _ => trivial
  | pos w =>
    match w, this with
    | [], _ => rfl
    | .ch c :: t, h =>
      simp only [posPlain, bne_iff_ne, ne_eq] at h
      simp [wordOf, Sym.meant, startsWith, List.isPrefixOf, Ne.symm h]
    | .fr f :: t, h =>
      have e : wordOf d (.fr f :: t) = f.meant d ++ wordOf d t := by simp [wordOf, Sym.meant]
      simp only
      rw [e]
      cases f with
      | fld k =>
        simp only [posPlain, Bool.and_eq_true, Bool.not_eq_true', List.contains_eq_mem, decide_eq_false_iff_not, decide_eq_true_eq] at h
        have h1 := hp.present k h.1
        have h2 := hp.val h.2
        refine startsWith_dash_append (present_fmt h1) ?_
        simp only [Frag.meant, Frag.render]
        cases hv : d.getD k with
        | str s => rw [hv] at h2; exact h2.2.1
        | _ => rw [hv] at h1; cases h1
      | join sep k =>
        simp only [posPlain, Bool.and_eq_true, Bool.not_eq_true', List.contains_eq_mem, decide_eq_false_iff_not, decide_eq_true_eq] at h
        obtain ⟨y, t', hy, hne, e⟩ := filled_join (hp.filled k h.1) sep
        simp only [Frag.meant, Frag.render, e, List.append_assoc]
        exact startsWith_dash_append hne (items_words (hp.val h.2) y hy).2.1
      | _ => cases h

theorem plain_dev {pos lst loose : List Str} {p : OptParser} {d : Ns} (hp : Plain pos lst loose d) : DevOk p d := by
  intro b _ _
  have hw : (d.getD b.dest).Words ∨ (d.getD b.dest).Quotable := by
    by_cases hk : b.dest ∈ loose
    · exact .inr (hp.quoted hk)
    · exact .inl (hp.val hk)
  cases hv : d.getD b.dest with
  | str s =>
    rw [hv] at hw
    rcases hw with hw | hw
    · exact hw.2.2
    · exact hw.2.2
  | none => decide
  | bool x => cases x <;> decide
  | int n =>
    simp only [Val.fmt]
    cases h : intStr n with
    | nil => rfl
    | cons c t =>
      have := intStr_chars n c (by rw [h]; exact List.mem_cons_self)
      have hne : c ≠ '/' := by
        rintro rfl
        revert this
        decide
      simp [startsWith, List.isPrefixOf, Ne.symm hne]
  | list l => rfl
  | pairs l => rfl

end Ks
