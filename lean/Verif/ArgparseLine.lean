import Verif.Argparse
/-!
# The line number given to the option parser only shows in its errors
-/
namespace Ks

/-- An exception without its line number. -/
def Exc.noLine : Exc → Exc
  | .parse t _ => .parse t none
  | .ks t _ => .ks t none
  | e => e

/-- The same value, or the same exception apart from its line number. -/
def SameUpToLine {α : Type} : Except Exc α → Except Exc α → Prop
  | .ok a, .ok b => a = b
  | .error e, .error f => e.noLine = f.noLine
  | _, _ => False

variable {α β : Type}

theorem SameUpToLine.refl (a : Except Exc α) : SameUpToLine a a := by cases a <;> rfl

theorem SameUpToLine.cases {a b : Except Exc α} (h : SameUpToLine a b) :
    (∃ x, a = .ok x ∧ b = .ok x) ∨ ∃ e f, a = .error e ∧ b = .error f ∧ e.noLine = f.noLine := by
  cases a <;> cases b
  · exact .inr ⟨_, _, rfl, rfl, h⟩
  · exact h.elim
  · exact h.elim
  · cases h; exact .inl ⟨_, rfl, rfl⟩

theorem SameUpToLine.bind {a b : Except Exc α} {f g : α → Except Exc β} (h : SameUpToLine a b)
    (hf : ∀ x, SameUpToLine (f x) (g x)) : SameUpToLine (a >>= f) (b >>= g) := by
  rcases h.cases with ⟨x, rfl, rfl⟩ | ⟨e, e', rfl, rfl, he⟩
  · exact hf x
  · exact he

theorem SameUpToLine.map {a b : Except Exc α} {f : α → β} (h : SameUpToLine a b) :
    SameUpToLine (a.map f) (b.map f) := by
  rcases h.cases with ⟨x, rfl, rfl⟩ | ⟨e, e', rfl, rfl, he⟩
  · rfl
  · exact he

theorem argErr_lsame (t : Str) (l l' : Option Int) : SameUpToLine (α := α) (.error (argErr t l)) (.error (argErr t l')) := rfl

variable (l l' : Option Int)

theorem parseOptional_lsame (p : OptParser) (s : Str) : SameUpToLine (p.parseOptional l s) (p.parseOptional l' s) := by
  unfold OptParser.parseOptional
  simp only
  repeat' split
  all_goals first | exact .refl _ | exact argErr_lsame ..

theorem classify_lsame (p : OptParser) (ss : List Str) : SameUpToLine (p.classify l ss) (p.classify l' ss) := by
  induction ss with
  | nil => rfl
  | cons a t ih =>
    rw [OptParser.classify, OptParser.classify]
    split
    · rfl
    · rcases (parseOptional_lsame l l' p a).cases with ⟨x, h1, h2⟩ | ⟨e, e', h1, h2, he⟩
      · rw [h1, h2]
        simp only
        rcases ih.cases with ⟨y, h3, h4⟩ | ⟨e, e', h3, h4, he⟩
        · rw [h3, h4]; rfl
        · rw [h3, h4]; exact he
      · rw [h1, h2]; exact he

theorem warnings_lsame (p : OptParser) (ss : List Str) : p.warnings l ss = p.warnings l' ss := by
  induction ss with
  | nil => rfl
  | cons a t ih =>
    rw [OptParser.warnings, OptParser.warnings]
    split
    · rfl
    · rcases (parseOptional_lsame l l' p a).cases with ⟨x, h1, h2⟩ | ⟨e, e', h1, h2, he⟩
      · rw [h1, h2, ih]
      · rw [h1, h2]

theorem getValue_lsame (a : Action) (s : Str) : SameUpToLine (getValue l a s) (getValue l' a s) := by
  unfold getValue
  split
  · rfl
  · exact argErr_lsame ..
  · exact argErr_lsame ..
  · exact .refl _

theorem checkValue_lsame (a : Action) (v : Val) : SameUpToLine (checkValue l a v) (checkValue l' a v) := by
  unfold checkValue
  split
  · rfl
  · split
    · split
      · rfl
      · exact argErr_lsame ..
    · exact argErr_lsame ..

theorem getValueList_lsame (a : Action) (ss : List Str) : SameUpToLine (getValueList l a ss) (getValueList l' a ss) := by
  induction ss with
  | nil => rfl
  | cons s t ih =>
    rw [getValueList, getValueList]
    exact (getValue_lsame l l' a s).bind fun v => (checkValue_lsame l l' a v).bind fun _ => ih.bind fun _ => .refl _

theorem getValues_lsame (a : Action) (ss : List Str) : SameUpToLine (getValues l a ss) (getValues l' a ss) := by
  unfold getValues
  simp only
  have h1 : ∀ s, SameUpToLine (do let v ← getValue l a s; checkValue l a v; return v)
      (do let v ← getValue l' a s; checkValue l' a v; return v) := fun s =>
    (getValue_lsame l l' a s).bind fun v => (checkValue_lsame l l' a v).bind fun _ => .refl _
  split
  · split
    · exact h1 _
    · exact .refl _
  · split
    · exact (checkValue_lsame l l' a _).bind fun _ => .refl _
    · rfl
  · exact h1 _
  · exact h1 _
  · exact (getValueList_lsame l l' a _).map

theorem takeAction_lsame (a : Action) (ss : List Str) (ns : Ns) : SameUpToLine (takeAction l a ss ns) (takeAction l' a ss ns) :=
  (getValues_lsame l l' a ss).map

theorem takePositionals_lsame (as : List Action) (ks : List Nat) (st : LoopSt) (rest : Args) :
    SameUpToLine (takePositionals l as ks st rest) (takePositionals l' as ks st rest) := by
  induction as generalizing ks st rest with
  | nil => cases ks <;> exact .refl _
  | cons a as ih =>
    cases ks with
    | nil => exact .refl _
    | cons k ks =>
      rw [takePositionals, takePositionals]
      rcases (takeAction_lsame l l' a ((rest.take k).map (·.1)) st.ns).cases with ⟨x, h1, h2⟩ | ⟨e, e', h1, h2, he⟩
      · rw [h1, h2]; exact ih _ _ _
      · rw [h1, h2]; exact he

theorem consumePositionals_lsame (st : LoopSt) (rest : Args) :
    SameUpToLine (consumePositionals l st rest) (consumePositionals l' st rest) := by
  unfold consumePositionals
  simp only
  rcases (takePositionals_lsame l l' st.positionals (matchPartial (st.positionals.map (·.nargs)) rest) st rest).cases with
    ⟨x, h1, h2⟩ | ⟨e, e', h1, h2, he⟩
  · rw [h1, h2]; exact .refl _
  · rw [h1, h2]; exact he

theorem consumeOptional_lsame (st : LoopSt) (s : Str) (t : OptTuple) (rest : Args) :
    SameUpToLine (consumeOptional l st s t rest) (consumeOptional l' st s t rest) := by
  unfold consumeOptional
  split
  · rfl
  · rename_i a _
    split
    · rename_i v _
      split
      · rcases (takeAction_lsame l l' a [v] st.ns).cases with ⟨x, h1, h2⟩ | ⟨e, e', h1, h2, he⟩
        · rw [h1, h2]; exact .refl _
        · rw [h1, h2]; exact he
      · exact argErr_lsame ..
      · exact argErr_lsame ..
    · split
      · exact argErr_lsame ..
      · rename_i k _
        rcases (takeAction_lsame l l' a ((rest.take k).map (·.1)) st.ns).cases with ⟨x, h1, h2⟩ | ⟨e, e', h1, h2, he⟩
        · rw [h1, h2]; exact .refl _
        · rw [h1, h2]; exact he

theorem parseLoop_lsame (fuel : Nat) (st : LoopSt) (rest : Args) :
    SameUpToLine (parseLoop l fuel st rest) (parseLoop l' fuel st rest) := by
  induction fuel generalizing st rest with
  | zero => exact .refl _
  | succ fuel ih =>
    rw [parseLoop, parseLoop]
    split
    · exact consumePositionals_lsame ..
    · rename_i pre s t tl _
      split
      · rcases (consumeOptional_lsame l l' st s t tl).cases with ⟨x, h1, h2⟩ | ⟨e, e', h1, h2, he⟩
        · rw [h1, h2]; exact ih _ _
        · rw [h1, h2]; exact he
      · rcases (consumePositionals_lsame l l' st rest).cases with ⟨⟨st', rest'⟩, h1, h2⟩ | ⟨e, e', h1, h2, he⟩
        · rw [h1, h2]
          simp only
          split
          · exact ih _ _
          · rcases (consumeOptional_lsame l l' { st' with extras := st'.extras ++ pre.map (·.1) } s t tl).cases with
              ⟨x, h1, h2⟩ | ⟨e, e', h1, h2, he⟩
            · rw [h1, h2]; exact ih _ _
            · rw [h1, h2]; exact he
        · rw [h1, h2]; exact he

theorem finish_lsame (seen : List Nat) (as : List Action) (ns : Ns) (m : Bool) :
    SameUpToLine (finish l seen as ns m) (finish l' seen as ns m) := by
  induction as generalizing ns m with
  | nil => rfl
  | cons a as ih =>
    rw [finish, finish]
    split
    · exact ih _ _
    · split
      · exact ih _ _
      · split
        · rename_i s _
          split
          · rcases (getValue_lsame l l' a s).cases with ⟨x, h1, h2⟩ | ⟨e, e', h1, h2, he⟩
            · rw [h1, h2]; exact ih _ _
            · rw [h1, h2]; exact he
          · exact ih _ _
        · exact ih _ _

theorem parseKnown_lsame (p : OptParser) (ss : List Str) : SameUpToLine (p.parseKnown l ss) (p.parseKnown l' ss) := by
  unfold OptParser.parseKnown
  rcases (classify_lsame l l' p ss).cases with ⟨cs, h1, h2⟩ | ⟨e, e', h1, h2, he⟩
  · rw [h1, h2]
    simp only
    rcases (parseLoop_lsame l l' (cs.length + 1) p.initSt cs).cases with ⟨⟨st, rest⟩, h1, h2⟩ | ⟨e, e', h1, h2, he⟩
    · rw [h1, h2]
      simp only
      rcases (finish_lsame l l' st.seen p.actions st.ns false).cases with ⟨⟨ns, m⟩, h1, h2⟩ | ⟨e, e', h1, h2, he⟩
      · rw [h1, h2]
        cases m
        · exact .refl _
        · exact argErr_lsame ..
      · rw [h1, h2]; exact he
    · rw [h1, h2]; exact he
  · rw [h1, h2]; exact he

/-- The outcome of parsing depends on the line number only through the number in the error. -/
theorem parseArgs_lsame (p : OptParser) (ss : List Str) : SameUpToLine (p.parseArgs l ss) (p.parseArgs l' ss) := by
  unfold OptParser.parseArgs
  rcases (parseKnown_lsame l l' p ss).cases with ⟨⟨ns, ex⟩, h1, h2⟩ | ⟨e, e', h1, h2, he⟩
  · rw [h1, h2]
    simp only
    split
    · exact argErr_lsame ..
    · rfl
  · rw [h1, h2]; exact he

end Ks
