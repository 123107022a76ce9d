import Verif.Commands.ReadBackLogic
/-!
# Lines in normal form are accepted by the option parser

The text of an object is the name of the command, words that are not options, and options.  The option
parser accepts it.
-/
namespace Ks

variable {p : OptParser} {l : Option Int}

/-! ## The option parser -/

/-- Defaults that are strings stay as they are. -/
def OptParser.plainDefaults (p : OptParser) : Bool := p.actions.all fun a => !a.default.isStr || decide (a.ty = .str)

theorem plainDefaults_type (h : p.plainDefaults = true) : ∀ a ∈ p.actions, ∀ s, a.default = .str s → a.type s = .ok (.str s) := by
  intro a ha s hs
  have := List.all_eq_true.1 h a ha
  simp only [Bool.or_eq_true, Bool.not_eq_true', decide_eq_true_eq] at this
  rcases this with e | e
  · rw [hs] at e; cases e
  · simp only [Action.type, e, Ty.run]

/-- A parser without positional arguments accepts options that it knows. -/
theorem known_opts (wf : p.WF) (hp : p.initSt.positionals = []) (hd : p.plainDefaults = true) {pos : List Str} (hpos : ∀ w ∈ pos, startsWith w c!"-" = false)
    {ts : List Tok} (hts : ∀ t ∈ ts, t.Fits p) (hv : ∀ t ∈ ts, ∃ a v, p.lookup t.name = some a ∧ getValues l a t.val.toList = .ok v)
    (hreq : ∀ a ∈ p.actions, a.required = true → a.id ∈ tokIds p ts) :
    ∃ ns, p.parseKnown l (pos ++ ts.map Tok.text) = .ok (ns, pos) := by
  rw [parseKnown_opts wf l hp hpos hts]
  obtain ⟨ns, hns⟩ := (runToks_ok_iff (ns := p.defaults)).2 hv
  rw [hns]
  simp only
  rw [finish_id (fun a ha hr => List.mem_reverse.2 (hreq a ha hr)) (plainDefaults_type hd)]
  exact ⟨ns, rfl⟩

/-- A parser with one positional argument accepts a word and options that it knows. -/
theorem known_word (wf : p.WF) {a : Action} (hp : p.initSt.positionals = [a]) (hn : a.nargs = .n 1) (hk : a.kind = .store) (hd : p.plainDefaults = true)
    {w : Str} (hw : startsWith w c!"-" = false) {ts : List Tok} (hts : ∀ t ∈ ts, t.Fits p)
    (hv : ∀ t ∈ ts, ∃ a v, p.lookup t.name = some a ∧ getValues l a t.val.toList = .ok v) {v : Val} (hg : getValues l a [w] = .ok v)
    (hreq : ∀ b ∈ p.actions, b.required = true → b.id = a.id ∨ b.id ∈ tokIds p ts) (hno : ∀ t ∈ ts, ∀ b, p.lookup t.name = some b → b.dest ≠ a.dest) :
    ∃ ns, p.parseKnown l (w :: ts.map Tok.text) = .ok (ns, []) ∧ ns.get a.dest = some v := by
  have hcount : matchPartial [a.nargs] [(w, Cls.A)] = [1] := by rw [hn]; rfl
  have htake : takeAction l a [w] p.defaults = .ok (p.defaults.set a.dest v) := by
    simp only [takeAction, hg, Except.map, applyAction, hk]
  have hcons : consumePositionals l p.initSt [(w, Cls.A)] = .ok (⟨p.defaults.set a.dest v, [], [], [a.id]⟩, []) := by
    unfold consumePositionals
    rw [hp]
    simp only [List.map_cons, List.map_nil, hcount, takePositionals, List.take_succ_cons, List.take_zero]
    rw [show p.initSt.ns = p.defaults from rfl, htake]
    rfl
  have hfin : ∀ (seen : List Nat) (ns : Ns), (∀ i ∈ tokIds p ts, i ∈ seen) → a.id ∈ seen → finish l seen p.actions ns false = .ok (ns, false) := by
    intro seen ns h1 h2
    refine finish_id (fun b hb hr => ?_) (plainDefaults_type hd)
    rcases hreq b hb hr with e | e
    · rw [e]; exact h2
    · exact h1 _ e
  have := parseKnown_canon wf l (pos := [w]) (by simpa using hw) hts
  rw [List.singleton_append] at this
  rw [this]
  unfold canonLoop
  by_cases hnil : ts = []
  · subst hnil
    rw [if_pos rfl, List.map_cons, List.map_nil, hcons]
    simp only
    rw [hfin _ _ (by simp [tokIds]) (by simp)]
    exact ⟨_, rfl, Ns.get_set_self _ _ _⟩
  rw [if_neg hnil, List.map_cons, List.map_nil]
  have hpl : posLoop l ([w].length + 1) p.initSt [(w, Cls.A)] = .ok ⟨p.defaults.set a.dest v, [], [], [a.id]⟩ := by
    rw [posLoop, if_neg (by simp), hcons]
    simp only [List.length_nil, List.length_cons, Nat.lt_add_one, if_true]
    rfl
  rw [hpl]
  simp only
  obtain ⟨ns, hns⟩ := (runToks_ok_iff (ns := p.defaults.set a.dest v)).2 hv
  rw [hns]
  simp only
  rw [consumePositionals_nil rfl]
  simp only
  rw [hfin _ _ (fun i hi => by simp [hi]) (by simp)]
  refine ⟨ns, rfl, ?_⟩
  rw [runToks_get hns, Ns.get_set_self]
  exact (runKey_const (x := some v) (fun t ht b hb e => absurd e (hno t ht b hb))).2 (.inr rfl)

/-! ## What is written -/

def SymArg.isOpt : SymArg → Bool
  | .opt _ _ => true
  | .pos _ => false

/-- The words after the name of the command, if they are in the piece with the name and all others are
options. -/
def firstWords (l : List (Cond × List SymArg)) : Option (List (List Sym)) :=
  match l.filter (fun x => !x.2.isEmpty) with
  | (_, .pos _ :: as) :: t =>
    if t.all (fun x => x.2.all SymArg.isOpt) && (as.dropWhile fun a => !a.isOpt).all SymArg.isOpt then
      some ((as.takeWhile fun a => !a.isOpt).filterMap fun a => match a with | .pos w => some w | .opt _ _ => none)
    else none
  | _ => none

theorem firedArgs_filter (d : Ns) (l : List (Cond × List SymArg)) : firedArgs d (l.filter fun x => !x.2.isEmpty) = firedArgs d l := by
  induction l with
  | nil => rfl
  | cons x t ih =>
    obtain ⟨c, as⟩ := x
    have e : ∀ t, firedArgs d ((c, as) :: t) = (if c.eval d then as else []) ++ firedArgs d t := fun t => by simp [firedArgs]
    cases as with
    | nil =>
      rw [List.filter_cons_of_neg (by simp), ih, e]
      simp
    | cons a as => rw [List.filter_cons_of_pos (by simp), e, e, ih]

theorem opts_of_all {as : List SymArg} (h : as.all SymArg.isOpt = true) : ∃ os : List (Str × Option (List Sym)), as = os.map fun x => .opt x.1 x.2 := by
  induction as with
  | nil => exact ⟨[], rfl⟩
  | cons a as ih =>
    simp only [List.all_cons, Bool.and_eq_true] at h
    obtain ⟨os, rfl⟩ := ih h.2
    cases a with
    | pos w => cases h.1
    | opt n v => exact ⟨(n, v) :: os, rfl⟩

theorem words_of_takeWhile (as : List SymArg) :
    as.takeWhile (fun a => !a.isOpt) = ((as.takeWhile fun a => !a.isOpt).filterMap fun a => match a with | .pos w => some w | .opt _ _ => none).map .pos := by
  induction as with
  | nil => rfl
  | cons a as ih =>
    cases a with
    | pos w =>
      rw [List.takeWhile_cons_of_pos (by simp [SymArg.isOpt])]
      simp only [List.filterMap_cons, List.map_cons]
      rw [← ih]
    | opt n v => rw [List.takeWhile_cons_of_neg (by simp [SymArg.isOpt])]; rfl

theorem firstWords_sound {d : Ns} {l : List (Cond × List SymArg)} {ps : List (List Sym)} (h : firstWords l = some ps) {w : List Sym} {rest : List SymArg}
    (hf : firedArgs d l = .pos w :: rest) : ∃ os : List (Str × Option (List Sym)), rest = ps.map .pos ++ os.map fun x => .opt x.1 x.2 := by
  unfold firstWords at h
  rw [← firedArgs_filter] at hf
  split at h
  · rename_i c w0 as t hl
    split at h
    · rename_i hc
      simp only [Bool.and_eq_true] at hc
      simp only [Option.some.injEq] at h
      subst h
      rw [hl] at hf
      have e : firedArgs d ((c, .pos w0 :: as) :: t) = (if c.eval d then .pos w0 :: as else []) ++ firedArgs d t := by simp [firedArgs]
      rw [e] at hf
      have ht : (firedArgs d t).all SymArg.isOpt = true := by
        rw [List.all_eq_true]
        intro a ha
        obtain ⟨x, hx, -, hax⟩ := mem_firedArgs.1 ha
        exact List.all_eq_true.1 (List.all_eq_true.1 hc.1 x hx) a hax
      split at hf
      · simp only [List.cons_append, List.cons.injEq] at hf
        obtain ⟨-, rfl⟩ := hf
        obtain ⟨o1, h1⟩ := opts_of_all hc.2
        obtain ⟨o2, h2⟩ := opts_of_all ht
        refine ⟨o1 ++ o2, ?_⟩
        rw [← words_of_takeWhile, List.map_append, ← h1, ← h2, ← List.append_assoc, List.takeWhile_append_dropWhile]
      · rw [List.nil_append] at hf
        rw [hf] at ht
        simp [SymArg.isOpt] at ht
    · cases h
  · cases h

/-- The name is in one of several pieces that exclude each other, and all other words are options. -/
def soleName : List (Cond × List SymArg) → Bool
  | [] => true
  | (c, as) :: t => (as.all SymArg.isOpt || (as.drop 1).all SymArg.isOpt && t.all fun x => x.2.all SymArg.isOpt || c.clash x.1) && soleName t

theorem soleName_sound {d : Ns} {l : List (Cond × List SymArg)} (h : soleName l = true) {w : List Sym} {rest : List SymArg}
    (hf : firedArgs d l = .pos w :: rest) : ∃ os : List (Str × Option (List Sym)), rest = os.map fun x => .opt x.1 x.2 := by
  have opts : ∀ r : List SymArg, (∀ a ∈ r, a.isOpt = true) → ∃ os : List (Str × Option (List Sym)), r = os.map fun x => .opt x.1 x.2 := by
    intro r
    induction r with
    | nil => exact fun _ => ⟨[], rfl⟩
    | cons a r ih =>
      intro hr
      obtain ⟨os, rfl⟩ := ih fun a ha => hr a (List.mem_cons_of_mem _ ha)
      cases a with
      | pos w => exact absurd (hr (.pos w) (by simp)) (by simp [SymArg.isOpt])
      | opt n v => exact ⟨(n, v) :: os, rfl⟩
  induction l with
  | nil => cases hf
  | cons x t ih =>
    obtain ⟨c, as⟩ := x
    simp only [soleName, Bool.and_eq_true, Bool.or_eq_true] at h
    have e : firedArgs d ((c, as) :: t) = (if c.eval d then as else []) ++ firedArgs d t := by simp [firedArgs]
    rw [e] at hf
    by_cases hc : c.eval d = true
    · rw [if_pos hc] at hf
      match as, h.1, hf with
      | [], _, hf => exact ih h.2 hf
      | .opt n v :: as, _, hf => cases hf
      | .pos w0 :: as, hh, hf =>
        rcases hh with hh | ⟨h1, h2⟩
        · simp [SymArg.isOpt] at hh
        · simp only [List.cons_append, List.cons.injEq] at hf
          obtain ⟨-, rfl⟩ := hf
          refine opts _ fun a ha => ?_
          rcases List.mem_append.1 ha with ha | ha
          · exact List.all_eq_true.1 h1 a ha
          · obtain ⟨y, hy, hye, hay⟩ := mem_firedArgs.1 ha
            have := List.all_eq_true.1 h2 y hy
            rw [Bool.or_eq_true] at this
            rcases this with h | h
            · exact List.all_eq_true.1 h a hay
            · exact (clash_sound h hc hye).elim
    · rw [if_neg hc] at hf
      exact ih h.2 hf

end Ks
