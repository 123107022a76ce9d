import Verif.PackagesLemmas
/-!
# The `%packages` section: C17-C21, C23

The vocabulary of the statements (`NamesPkg`, `DropsPkg`, `NamesEnv`, `DropsEnv`, `DropsGroup`
in `PackagesLemmas`) is about the text of a line only:
`p`, `-p`, `@^e`, `-@^e`, `-@g`, after stripping blanks.
-/
namespace Ks

/-- Call `add` once per line, going on after a line that raises. -/
def feedLines (p : Packages) (ls : List Str) : Packages := ls.foldl (fun p l => (p.add [l]).1) p

/-- Call `add` once per batch, going on after a batch that raises. -/
def feedBatches (p : Packages) (bs : List (List Str)) : Packages := bs.foldl (fun p b => (p.add b).1) p

/-- The part of a `%packages` line before a comment. -/
def beforeHash (l : Str) : Str := l.takeWhile (· ≠ '#')

/-- Hand the lines of a `%packages` section to the section object. -/
def feedSection (p : Packages) (ls : List Str) : Packages := ls.foldl (fun p l => (p.handleLine l).1) p

theorem partition_fst_eq (l : Str) : (partition '#' l).1 = beforeHash l := by
  induction l with
  | nil => rfl
  | cons c t ih =>
    rw [partition, beforeHash, List.takeWhile_cons]
    by_cases h : c = '#'
    · simp [h]
    · simp only [h, if_false, ne_eq, not_false_eq_true, decide_true, if_true]
      rw [ih]; rfl

theorem strip_rstrip (s : Str) : strip (rstrip s) = strip s := by
  obtain ⟨t, h, ht⟩ := rstrip_prefix s
  obtain ⟨a, b, h1, h2, h3⟩ := strip_decomp (rstrip s)
  conv => rhs; rw [h]
  conv => rhs; rw [h1]
  rw [List.append_assoc]
  exact (strip_padded h2 (by simp [h3, ht]) (strip_trimmed _)).symm

theorem feedSection_eq (p : Packages) (ls : List Str) :
    feedSection p ls = feedLines p (ls.map fun l => rstrip (beforeHash l)) := by
  unfold feedSection feedLines
  rw [List.foldl_map]
  simp only [Packages.handleLine, partition_fst_eq]

/-! ## C17 -/

theorem add_one_lists (p : Packages) (l : Str) (hd : ∀ x ∈ p.packageList, x ∉ p.excludedList) :
    (∀ x, x ∈ (p.add [l]).1.packageList ↔ NamesPkg x l ∨ (x ∈ p.packageList ∧ ¬ DropsPkg x l)) ∧
    (∀ x, x ∈ (p.add [l]).1.excludedList ↔ DropsPkg x l ∨ (x ∈ p.excludedList ∧ ¬ NamesPkg x l)) := by
  cases h : p.add [l] with
  | mk q o =>
    have hboth : ∀ x, NamesPkg x l → DropsPkg x l → False := by
      intro x hn hx
      have : x = '-' :: x := hn.1.symm.trans hx.1
      have := congrArg List.length this
      simp at this
    cases o with
    | none =>
      obtain ⟨h1, h2⟩ := add_ok_lists h
      simp only [List.mem_singleton, exists_eq_left] at h1 h2
      refine ⟨h1, fun x => ?_⟩
      rw [h2, h1]
      constructor
      · rintro (h | ⟨h, h'⟩)
        · exact .inl h
        · exact .inr ⟨h, fun hn => h' (.inl hn)⟩
      · rintro (h | ⟨h, h'⟩)
        · exact .inl h
        · by_cases hx : DropsPkg x l
          · exact .inl hx
          · refine .inr ⟨h, ?_⟩
            rintro (hn | ⟨hp, _⟩)
            · exact h' hn
            · exact hd x hp h
    | some e =>
      have hs := add_error_same h
      have hno : ∀ x, ¬ NamesPkg x l ∧ ¬ DropsPkg x l := by
        intro x
        unfold Packages.add Packages.addLoop at h
        rw [addLine_eq] at h
        constructor
        · intro hx
          rw [kind_pkg.2 hx] at h
          simp [Packages.addLoop] at h
        · intro hx
          rw [kind_drop.2 hx] at h
          simp [Packages.addLoop] at h
      rw [hs.packageList, hs.excludedList]
      simp [hno]

theorem feedLines_disjoint (p : Packages) (ls : List Str) (hd : ∀ x ∈ p.packageList, x ∉ p.excludedList) :
    ∀ x ∈ (feedLines p ls).packageList, x ∉ (feedLines p ls).excludedList := by
  induction ls generalizing p with
  | nil => exact hd
  | cons l ls ih =>
    refine ih _ ?_
    obtain ⟨h1, h2⟩ := add_one_lists p l hd
    intro x hx hx'
    rw [h1] at hx
    rw [h2] at hx'
    rcases hx with hx | ⟨hx, hx2⟩
    · rcases hx' with h | ⟨_, h⟩
      · have := congrArg List.length (hx.1.symm.trans h.1)
        simp at this
      · exact h hx
    · rcases hx' with h | ⟨h, _⟩
      · exact hx2 h
      · exact hd x hx h

/-- C17: after feeding any lines one at a time to a fresh selection, a package is selected iff some
line names it and no later line excludes it, it is excluded iff some line excludes it and no later
line names it, and it is never both. -/
theorem C17_last_mention (ls : List Str) (x : Str) :
    (x ∈ (feedLines {} ls).packageList ↔
      ∃ a l b, ls = a ++ l :: b ∧ NamesPkg x l ∧ ∀ m ∈ b, ¬ DropsPkg x m) ∧
    (x ∈ (feedLines {} ls).excludedList ↔
      ∃ a l b, ls = a ++ l :: b ∧ DropsPkg x l ∧ ∀ m ∈ b, ¬ NamesPkg x m) ∧
    ¬ (x ∈ (feedLines {} ls).packageList ∧ x ∈ (feedLines {} ls).excludedList) := by
  have gen : ∀ (ls : List Str) (p : Packages), (∀ x ∈ p.packageList, x ∉ p.excludedList) →
      (x ∈ (feedLines p ls).packageList ↔
        (∃ a l b, ls = a ++ l :: b ∧ NamesPkg x l ∧ ∀ m ∈ b, ¬ DropsPkg x m) ∨
        (x ∈ p.packageList ∧ ∀ m ∈ ls, ¬ DropsPkg x m)) ∧
      (x ∈ (feedLines p ls).excludedList ↔
        (∃ a l b, ls = a ++ l :: b ∧ DropsPkg x l ∧ ∀ m ∈ b, ¬ NamesPkg x m) ∨
        (x ∈ p.excludedList ∧ ∀ m ∈ ls, ¬ NamesPkg x m)) := by
    intro ls
    induction ls with
    | nil => intro p _; simp [feedLines]
    | cons l ls ih =>
      intro p hd
      obtain ⟨i1, i2⟩ := ih (p.add [l]).1 (feedLines_disjoint p [l] hd)
      obtain ⟨h1, h2⟩ := add_one_lists p l hd
      have e : feedLines p (l :: ls) = feedLines (p.add [l]).1 ls := rfl
      rw [e, i1, i2, h1, h2]
      have split : ∀ (P Q : Str → Prop),
          (∃ a m b, l :: ls = a ++ m :: b ∧ P m ∧ ∀ n ∈ b, ¬ Q n) ↔
            (∃ a m b, ls = a ++ m :: b ∧ P m ∧ ∀ n ∈ b, ¬ Q n) ∨ (P l ∧ ∀ n ∈ ls, ¬ Q n) := by
        intro P Q
        constructor
        · rintro ⟨a, m, b, h, hp, hq⟩
          cases a with
          | nil =>
            simp only [List.nil_append, List.cons.injEq] at h
            obtain ⟨rfl, rfl⟩ := h
            exact .inr ⟨hp, hq⟩
          | cons y a =>
            simp only [List.cons_append, List.cons.injEq] at h
            exact .inl ⟨a, m, b, h.2, hp, hq⟩
        · rintro (⟨a, m, b, rfl, hp, hq⟩ | ⟨hp, hq⟩)
          · exact ⟨l :: a, m, b, rfl, hp, hq⟩
          · exact ⟨[], l, ls, rfl, hp, hq⟩
      have allc : ∀ (Q : Str → Prop), (∀ m ∈ l :: ls, ¬ Q m) ↔ ¬ Q l ∧ ∀ m ∈ ls, ¬ Q m := by
        intro Q; simp
      rw [split, split, allc, allc]
      constructor <;> constructor
      · rintro (h | ⟨h | ⟨h, h'⟩, h''⟩)
        · exact .inl (.inl h)
        · exact .inl (.inr ⟨h, h''⟩)
        · exact .inr ⟨h, h', h''⟩
      · rintro ((h | ⟨h, h'⟩) | ⟨h, h', h''⟩)
        · exact .inl h
        · exact .inr ⟨.inl h, h'⟩
        · exact .inr ⟨.inr ⟨h, h'⟩, h''⟩
      · rintro (h | ⟨h | ⟨h, h'⟩, h''⟩)
        · exact .inl (.inl h)
        · exact .inl (.inr ⟨h, h''⟩)
        · exact .inr ⟨h, h', h''⟩
      · rintro ((h | ⟨h, h'⟩) | ⟨h, h', h''⟩)
        · exact .inl h
        · exact .inr ⟨.inl h, h'⟩
        · exact .inr ⟨.inr ⟨h, h'⟩, h''⟩
  obtain ⟨g1, g2⟩ := gen ls {} (by simp)
  refine ⟨by simpa using g1, by simpa using g2, ?_⟩
  rintro ⟨ha, hb⟩
  exact feedLines_disjoint {} ls (by simp) x ha hb

/-- C17 for the lines of a `%packages` section, as the section object sees them: a `#` starts a
comment. -/
theorem C17_section_lines (ls : List Str) (x : Str) :
    (x ∈ (feedSection {} ls).packageList ↔
      ∃ a l b, ls = a ++ l :: b ∧ NamesPkg x (beforeHash l) ∧ ∀ m ∈ b, ¬ DropsPkg x (beforeHash m)) ∧
    (x ∈ (feedSection {} ls).excludedList ↔
      ∃ a l b, ls = a ++ l :: b ∧ DropsPkg x (beforeHash l) ∧ ∀ m ∈ b, ¬ NamesPkg x (beforeHash m)) ∧
    ¬ (x ∈ (feedSection {} ls).packageList ∧ x ∈ (feedSection {} ls).excludedList) := by
  rw [feedSection_eq]
  have h := C17_last_mention (ls.map fun l => rstrip (beforeHash l)) x
  have n : ∀ l, NamesPkg x (rstrip l) ↔ NamesPkg x l := fun l => by rw [NamesPkg, NamesPkg, strip_rstrip]
  have d : ∀ l, DropsPkg x (rstrip l) ↔ DropsPkg x l := fun l => by rw [DropsPkg, DropsPkg, strip_rstrip]
  have split : ∀ (P Q : Str → Prop), (∀ l, P (rstrip l) ↔ P l) → (∀ l, Q (rstrip l) ↔ Q l) →
      ((∃ a l b, (ls.map fun l => rstrip (beforeHash l)) = a ++ l :: b ∧ P l ∧ ∀ m ∈ b, ¬ Q m) ↔
      ∃ a l b, ls = a ++ l :: b ∧ P (beforeHash l) ∧ ∀ m ∈ b, ¬ Q (beforeHash m)) := by
    intro P Q hP hQ
    constructor
    · rintro ⟨a, l, b, he, hp, hq⟩
      obtain ⟨a', r, rfl, rfl, hr⟩ := List.map_eq_append_iff.1 he
      obtain ⟨l', b', rfl, rfl, rfl⟩ := List.map_eq_cons_iff.1 hr
      refine ⟨a', l', b', rfl, (hP _).1 hp, fun m hm => ?_⟩
      exact fun hqm => hq _ (List.mem_map.2 ⟨m, hm, rfl⟩) ((hQ _).2 hqm)
    · rintro ⟨a, l, b, rfl, hp, hq⟩
      refine ⟨a.map fun l => rstrip (beforeHash l), rstrip (beforeHash l), b.map fun l => rstrip (beforeHash l), by simp,
        (hP _).2 hp, ?_⟩
      intro m hm
      obtain ⟨m', hm', rfl⟩ := List.mem_map.1 hm
      exact fun hqm => hq m' hm' ((hQ _).1 hqm)
  rw [split _ _ n d, split _ _ d n] at h
  exact h

-- non-vacuity: `vim` is excluded, then named again; `emacs` the other way round
example : (feedSection {} [c!"emacs\n", c!"-vim # no\n", c!"@core\n", c!" vim\n", c!"-emacs\n", c!"-\n"]).packageList = [c!"vim"] ∧
    (feedSection {} [c!"emacs\n", c!"-vim # no\n", c!"@core\n", c!" vim\n", c!"-emacs\n", c!"-\n"]).excludedList = [c!"emacs"] := by
  decide +kernel

/-! ## C18 -/

/-- C18: after any history of `add` calls, failing ones included, both package lists are strictly
ascending in code point order (hence sorted and without duplicates). -/
theorem C18_sorted (bs : List (List Str)) :
    (feedBatches {} bs).packageList.Pairwise (· < ·) ∧ (feedBatches {} bs).excludedList.Pairwise (· < ·) ∧
    (feedBatches {} bs).packageList.Nodup ∧ (feedBatches {} bs).excludedList.Nodup := by
  have gen : ∀ (bs : List (List Str)) (p : Packages), p.packageList.Pairwise (· < ·) → p.excludedList.Pairwise (· < ·) →
      (feedBatches p bs).packageList.Pairwise (· < ·) ∧ (feedBatches p bs).excludedList.Pairwise (· < ·) := by
    intro bs
    induction bs with
    | nil => exact fun p h1 h2 => ⟨h1, h2⟩
    | cons b bs ih =>
      intro p h1 h2
      have : (p.add b).1.packageList.Pairwise (· < ·) ∧ (p.add b).1.excludedList.Pairwise (· < ·) := by
        cases h : p.add b with
        | mk q o =>
          cases o with
          | some e =>
            have := add_error_same h
            rw [this.packageList, this.excludedList]
            exact ⟨h1, h2⟩
          | none =>
            unfold Packages.add at h
            split at h
            · simp at h
            · simp only [Prod.mk.injEq, and_true] at h
              subst h
              exact ⟨sortedSet_lt _, sortedSet_lt _⟩
      exact ih _ this.1 this.2
  obtain ⟨h1, h2⟩ := gen bs {} .nil .nil
  refine ⟨h1, h2, h1.imp ?_, h2.imp ?_⟩
  · rintro a b h rfl; exact List.lt_irrefl _ h
  · rintro a b h rfl; exact List.lt_irrefl _ h

example : (feedBatches {} [[c!"b", c!"a", c!"b"], [c!"", c!"q"], [c!"C", c!"-z", c!"-z", c!"-y"]]).packageList =
    [c!"C", c!"a", c!"b"] := by decide +kernel

/-! ## C19 -/

/-- C19: `groupList` never holds two groups of one name. -/
theorem C19_names_unique (bs : List (List Str)) : ((feedBatches {} bs).groupList.map (·.name)).Nodup := by
  have gen : ∀ (bs : List (List Str)) (p : Packages), (p.groupList.map (·.name)).Nodup →
      ((feedBatches p bs).groupList.map (·.name)).Nodup := by
    intro bs
    induction bs with
    | nil => exact fun p h => h
    | cons b bs ih =>
      intro p hp
      refine ih _ ?_
      have hg := (addLoop_grow p {} b).nodup hp
      show ((p.add b).1.groupList.map (·.name)).Nodup
      unfold Packages.add
      split
      · rename_i h; rw [h] at hg; exact hg
      · rename_i h; rw [h] at hg
        exact hg.sublist (List.Sublist.map _ List.filter_sublist)
  exact gen bs {} .nil

/-- C19: a group in the list stays there, with its mode, whatever is added (in particular when it is
added again with another mode), unless the batch excludes it. -/
theorem C19_first_mode_stays (p : Packages) (b : List Str) (g : Group) (hg : g ∈ p.groupList)
    (hn : ∀ l ∈ b, ¬ DropsGroup g.name l) : g ∈ (p.add b).1.groupList := by
  have hk := (addLoop_grow p {} b).keep g hg
  unfold Packages.add
  split
  · rename_i h; rw [h] at hk; exact hk
  · rename_i p' acc h; rw [h] at hk
    simp only [Packages.addFinish, List.mem_filter, decide_eq_true_eq]
    refine ⟨hk, ?_⟩
    intro hm
    obtain ⟨g', hg', he⟩ := List.mem_map.1 hm
    rcases (addLoop_excluded h).1 g' hg' with h0 | ⟨l, hl, hd⟩
    · simp at h0
    · exact hn l hl (he ▸ hd)

/-- C19: a group line appends the group with the mode of that line if the name is new, and changes
nothing otherwise.  The name is the words before the options, joined by single blanks. -/
theorem C19_group_line (p : Packages) (l : Str) (ws : List Str) (m : GroupMode) (suffix : Str)
    (hm : (m = .default ∧ suffix = []) ∨ (m = .required ∧ suffix = c!" --nodefaults") ∨
      (m = .all ∧ suffix = c!" --optional"))
    (hw : ∀ w ∈ ws, IsWord w ∧ startsWith w c!"-" = false)
    (hl : strip l = c!"@" ++ joinWith c!" " ws ++ suffix) (henv : ∀ e, ¬ NamesEnv e l) :
    (p.add [l]).2 = none ∧
    (p.add [l]).1.groupList =
      if joinWith c!" " ws ∈ p.groupList.map (·.name) then p.groupList
      else p.groupList ++ [⟨joinWith c!" " ws, m⟩] := by
  have hs : suffix = m.suffix := by
    rcases hm with ⟨rfl, rfl⟩ | ⟨rfl, rfl⟩ | ⟨rfl, rfl⟩ <;> rfl
  subst hs
  have hk : lineKind (strip l) = .group (joinWith c!" " ws ++ m.suffix) := by
    have : strip l = '@' :: (joinWith c!" " ws ++ m.suffix) := by rw [hl]; rfl
    rw [this]
    unfold lineKind
    simp only [if_true]
    rw [if_neg]
    intro hh
    refine henv (joinWith c!" " ws ++ m.suffix).tail ?_
    unfold NamesEnv
    rw [this]
    cases hr : joinWith c!" " ws ++ m.suffix with
    | nil => rw [hr] at hh; simp at hh
    | cons c r => rw [hr] at hh; simp at hh; rw [hh]; rfl
  have h2 := processGroup_words p ws hw m
  unfold Packages.add Packages.addLoop
  rw [addLine_eq, hk]
  simp only
  rw [h2]
  by_cases h : joinWith c!" " ws ∈ p.groupList.map (·.name)
  · simp only [if_pos h]
    simp [Packages.addLoop, Packages.addFinish]
  · simp only [if_neg h]
    simp [Packages.addLoop, Packages.addFinish]

/-- C19: `-@g` removes every group named `g`, added before or in the same batch, and the excluded
groups are recorded in order. -/
theorem C19_exclusion (p q : Packages) (b : List Str) (h : p.add b = (q, none)) :
    (∀ l ∈ b, ∀ n, DropsGroup n l → n.head? ≠ some '^' → ∀ g ∈ q.groupList, g.name ≠ n) ∧
    ((∀ l ∈ b, ∀ e, ¬ DropsEnv e l) →
      q.excludedGroupList.map (·.name) = p.excludedGroupList.map (·.name) ++
        (b.filter fun l => startsWith (strip l) c!"-@").map fun l => (strip l).drop 2) := by
  have hs := addLoop_same p {} b
  unfold Packages.add at h
  split at h
  · simp at h
  · rename_i p' acc hl
    rw [hl] at hs
    obtain ⟨_, h2, _, h4⟩ := addLoop_excluded hl
    simp only [Prod.mk.injEq, and_true] at h
    subst h
    constructor
    · intro l hl n hn hh g hg he
      obtain ⟨g', hg', he'⟩ := h2 l hl n hn hh
      simp only [Packages.addFinish, List.mem_filter, decide_eq_true_eq] at hg
      exact hg.2 (List.mem_map.2 ⟨g', hg', he'.trans he.symm⟩)
    · intro hne
      have he : p'.excludedGroupList = p.excludedGroupList := hs.excludedGroupList
      simp only [Packages.addFinish, he, List.map_append, h4 hne, List.nil_append, List.map_map]
      rfl

-- non-vacuity, and what the exclusion does not do: `@g` after `-@g` leaves g on both lists
example : (feedLines {} [c!"@a b --optional", c!"@x", c!"@a  b", c!"-@x", c!"@core --nodefaults"]).groupList =
    [⟨c!"a b", .all⟩, ⟨c!"core", .required⟩] := by decide +kernel
example : (feedLines {} [c!"-@x", c!"@x"]).groupList = [⟨c!"x", .default⟩] ∧
    (feedLines {} [c!"-@x", c!"@x"]).excludedGroupList = [⟨c!"x", .default⟩] := by decide +kernel

/-! ## C20 -/

/-- C20, lines fed one at a time (failing lines included): the environment is `e` iff some line
chooses `e`, no later line chooses any environment and no later line cancels `e`. -/
theorem C20_environment (ls : List Str) (e : Str) :
    (feedLines {} ls).environment = some e ↔
      ∃ a l b, ls = a ++ l :: b ∧ NamesEnv e l ∧ ∀ m ∈ b, (∀ e', ¬ NamesEnv e' m) ∧ ¬ DropsEnv e m := by
  have : ∀ (ls : List Str) (p : Packages), (feedLines p ls).environment = ls.foldl envStep p.environment := by
    intro ls
    induction ls with
    | nil => exact fun _ => rfl
    | cons l ls ih =>
      intro p
      rw [List.foldl_cons, ← add_one_env]
      exact ih _
  rw [this, foldl_envStep_iff]
  simp

/-- C20, lines in one batch (which did not raise). -/
theorem C20_environment_batch (p q : Packages) (b : List Str) (h : p.add b = (q, none)) (e : Str) :
    q.environment = some e ↔
      (∃ x l y, b = x ++ l :: y ∧ NamesEnv e l ∧ ∀ m ∈ y, (∀ e', ¬ NamesEnv e' m) ∧ ¬ DropsEnv e m) ∨
      (p.environment = some e ∧ ∀ m ∈ b, (∀ e', ¬ NamesEnv e' m) ∧ ¬ DropsEnv e m) := by
  rw [add_env h, foldl_envStep_iff]

example : (feedLines {} [c!"@^a b", c!"@^c", c!"-@^a b", c!"x"]).environment = some c!"c" := by decide +kernel
example : (feedLines {} [c!"@^c", c!"-@^c"]).environment = none := by decide +kernel

/-! ## C21 -/

/-- C21: the package lists after a batch depend only on which packages the batch names and excludes,
not on the order of its lines. -/
theorem C21_batch (p q : Packages) (b : List Str) (h : p.add b = (q, none)) (x : Str) :
    (x ∈ q.packageList ↔ (∃ l ∈ b, NamesPkg x l) ∨ (x ∈ p.packageList ∧ ¬ ∃ l ∈ b, DropsPkg x l)) ∧
    (x ∈ q.excludedList ↔ (∃ l ∈ b, DropsPkg x l) ∨ (x ∈ p.excludedList ∧ x ∉ q.packageList)) :=
  ⟨(add_ok_lists h).1 x, (add_ok_lists h).2 x⟩

/-- C21: a batch with both `x` and `-x` puts `x` on both lists. -/
theorem C21_both (p q : Packages) (b : List Str) (h : p.add b = (q, none)) (x l m : Str)
    (hl : l ∈ b) (hm : m ∈ b) (hx : NamesPkg x l) (hx' : DropsPkg x m) :
    x ∈ q.packageList ∧ x ∈ q.excludedList := by
  obtain ⟨h1, h2⟩ := C21_batch p q b h x
  exact ⟨h1.2 (.inl ⟨l, hl, hx⟩), h2.2 (.inl ⟨m, hm, hx'⟩)⟩

/-- C21: reordering a batch does not change the package lists (if neither order raises). -/
theorem C21_order_irrelevant (p q q' : Packages) (b b' : List Str) (hp : b.Perm b')
    (h : p.add b = (q, none)) (h' : p.add b' = (q', none)) :
    q.packageList = q'.packageList ∧ q.excludedList = q'.excludedList := by
  have asc : ∀ {p q : Packages} {b : List Str}, p.add b = (q, none) →
      q.packageList.Pairwise (· < ·) ∧ q.excludedList.Pairwise (· < ·) := by
    intro p q b h
    unfold Packages.add at h
    split at h
    · simp at h
    · simp only [Prod.mk.injEq, and_true] at h
      subst h
      exact ⟨sortedSet_lt _, sortedSet_lt _⟩
  have hm : ∀ (P : Str → Prop), (∃ l ∈ b, P l) ↔ ∃ l ∈ b', P l := fun P =>
    exists_congr fun l => and_congr_left' hp.mem_iff
  have e1 : q.packageList = q'.packageList := by
    refine ascending_ext (asc h).1 (asc h').1 fun x => ?_
    rw [(C21_batch p q b h x).1, (C21_batch p q' b' h' x).1, hm, hm]
  refine ⟨e1, ascending_ext (asc h).2 (asc h').2 fun x => ?_⟩
  rw [(C21_batch p q b h x).2, (C21_batch p q' b' h' x).2, hm, e1]

-- non-vacuity: one batch against the same lines one at a time
example : (({} : Packages).add [c!"p", c!"-p"]).1.packageList = [c!"p"] ∧
    (({} : Packages).add [c!"p", c!"-p"]).1.excludedList = [c!"p"] ∧
    (({} : Packages).add [c!"p", c!"-p"]).2 = none ∧
    (feedLines {} [c!"p", c!"-p"]).packageList = [] := by decide +kernel

/-! ## C23 -/

/-- Two selections that differ only in the order of their lists. -/
structure Packages.Reordered (p q : Packages) : Prop where
  groups : q.groupList.Perm p.groupList
  packages : q.packageList.Perm p.packageList
  excludedGroups : q.excludedGroupList.Perm p.excludedGroupList
  excluded : q.excludedList.Perm p.excludedList
  rest : { q with groupList := [], packageList := [], excludedGroupList := [], excludedList := [] } =
    { p with groupList := [], packageList := [], excludedGroupList := [], excludedList := [] }

theorem str_snd (ver : Nat) (p : Packages) : (p.str ver).2 = p.content.2 := by
  unfold Packages.str
  simp only
  split
  · rfl
  · split <;> rfl

/-- C23: writing the selection only reorders its lists. -/
theorem C23_same_selection (ver : Nat) (p : Packages) : p.Reordered (p.str ver).2 := by
  rw [str_snd]
  exact ⟨sortBy_perm _, sortBy_perm _, sortBy_perm _, sortBy_perm _, rfl⟩

theorem content_twice (p : Packages) : p.content.2.content = p.content := by
  have h1 := sortBy_of_sorted _ (sortBy_sorted weakOrd_group p.groupList)
  have h2 := sortBy_of_sorted _ (sortBy_sorted weakOrd_strLt p.packageList)
  have h3 := sortBy_of_sorted _ (sortBy_sorted weakOrd_group p.excludedGroupList)
  have h4 := sortBy_of_sorted _ (sortBy_sorted weakOrd_strLt p.excludedList)
  unfold Packages.content
  simp only [h1, h2, h3, h4]

/-- C23: writing twice gives the same text (and the second time changes nothing). -/
theorem C23_idempotent (ver : Nat) (p : Packages) : (p.str ver).2.str ver = p.str ver := by
  have h : p.content.2.str ver = p.str ver := by
    unfold Packages.str
    rw [content_twice]
  rw [str_snd, h]

/-- Nothing is selected: all attributes have the values of a new object (an empty environment name
counts as no environment). -/
def Packages.Untouched (p : Packages) : Prop :=
  p = { environment := p.environment } ∧ (p.environment = none ∨ p.environment = some [])

/-- C23: the text is empty exactly when nothing was selected and no `%packages` was seen. -/
theorem C23_empty_iff (ver : Nat) (p : Packages) : (p.str ver).1 = [] ↔ p.Untouched := by
  have hsort : ∀ {α : Type} (lt : α → α → Bool) (l : List α), sortBy lt l = [] ↔ l = [] := by
    intro α lt l
    constructor
    · intro h
      have := sortBy_perm (lt := lt) l
      rw [h] at this
      exact this.symm.eq_nil
    · rintro rfl; rfl
  have hflat : ∀ {α : Type} (f : α → Str) (l : List α), (∀ a, f a ≠ []) → ((l.map f).flatten = [] ↔ l = []) := by
    intro α f l hf
    cases l with
    | nil => simp
    | cons a t => simp [hf a]
  have h1 : (p.str ver).1 = [] ↔ p.headerOpts = [] ∧ p.content.1 = [] ∧ p.seen = false := by
    unfold Packages.str
    simp only
    have e : p.content.2.headerOpts = p.headerOpts := rfl
    have e2 : p.content.2.seen = p.seen := rfl
    rw [e, e2]
    split
    · rename_i h; simp [h]
    · rename_i h
      split <;> simp [h]
  rw [h1]
  unfold Packages.headerOpts Packages.content Packages.Untouched
  simp only [List.append_eq_nil_iff, hflat _ _ (fun _ => List.append_ne_nil_of_right_ne_nil _ (List.cons_ne_nil _ _)), hsort]
  rcases p with ⟨b1, b2, b3, env, l1, l2, b4, l3, b5, b6, l4, o1, b7, b8, o2, o3, b9⟩
  simp only [Packages.mk.injEq, true_and]
  constructor
  · rintro ⟨⟨⟨⟨⟨⟨⟨⟨⟨⟨⟨h1, h2⟩, h3⟩, h4⟩, h5⟩, h6⟩, h7⟩, h8⟩, h9⟩, h10⟩, h11⟩, ⟨⟨⟨⟨h12, h13⟩, h14⟩, h15⟩, h16⟩, h17⟩
    have e1 : b3 = false := by cases b3 <;> simp_all
    subst e1
    have e2 : b4 = false := by cases b4 <;> simp_all
    have e3 : b1 = true := by cases b1 <;> simp_all
    have e4 : b2 = false := by cases b2 <;> simp_all
    have e5 : b5 = false := by cases b5 <;> simp_all
    have e6 : b6 = false := by cases b6 <;> simp_all
    have e7 : o1 = none := by cases o1 <;> simp_all
    have e8 : b7 = false := by cases b7 <;> simp_all
    have e9 : b8 = false := by cases b8 <;> simp_all
    have e10 : o2 = none := by cases o2 <;> simp_all
    have e11 : o3 = none := by cases o3 <;> simp_all
    refine ⟨⟨e3, e4, rfl, h16, h15, e2, h13, e5, e6, h14, e7, e8, e9, e10, e11, h17⟩, ?_⟩
    cases env with
    | none => exact .inl rfl
    | some e =>
      right
      simp only [Bool.false_eq_true, not_false_eq_true, if_true] at h12
      by_cases he : e = []
      · rw [he]
      · simp [he] at h12
  · rintro ⟨⟨rfl, rfl, rfl, rfl, rfl, rfl, rfl, rfl, rfl, rfl, rfl, rfl, rfl, rfl, rfl, rfl⟩, h⟩
    rcases h with rfl | rfl <;> simp

example : (({ packageList := [c!"b", c!"a"] } : Packages).str Version.F34) =
    (c!"\n%packages\na\nb\n\n%end\n", { packageList := [c!"a", c!"b"] }) := by decide +kernel

end Ks
