import Verif.Packages
import Verif.ArgparseCanon
/-!
# Lemmas about sorting, sets and `Packages.add`
-/
namespace Ks

/-! ## Order on strings -/

theorem strLt_iff {a b : Str} : strLt a b = true ↔ a < b := by simp [strLt]
theorem strLt_false {a b : Str} : strLt a b = false ↔ ¬ a < b := by simp [strLt]

/-! ## Sorting -/

theorem mem_insertBy {α : Type} {lt : α → α → Bool} {x y : α} {l : List α} :
    y ∈ insertBy lt x l ↔ y = x ∨ y ∈ l := by
  induction l with
  | nil => simp [insertBy]
  | cons z t ih =>
    rw [insertBy]
    split
    · simp only [List.mem_cons, ih]; constructor <;> rintro (h | h | h) <;> simp [h]
    · simp

theorem mem_sortBy {α : Type} {lt : α → α → Bool} {y : α} {l : List α} : y ∈ sortBy lt l ↔ y ∈ l := by
  induction l with
  | nil => simp [sortBy]
  | cons z t ih =>
    rw [show sortBy lt (z :: t) = insertBy lt z (sortBy lt t) from rfl, mem_insertBy, ih, List.mem_cons]

theorem insertBy_perm {α : Type} {lt : α → α → Bool} (x : α) (l : List α) : (insertBy lt x l).Perm (x :: l) := by
  induction l with
  | nil => exact .refl _
  | cons z t ih =>
    rw [insertBy]
    split
    · exact (List.Perm.cons z ih).trans (.swap x z t)
    · exact .refl _

theorem sortBy_perm {α : Type} {lt : α → α → Bool} (l : List α) : (sortBy lt l).Perm l := by
  induction l with
  | nil => exact .refl _
  | cons z t ih => exact (insertBy_perm z _).trans (.cons z ih)

/-- A comparison whose "not greater" relation is total preorder-like. -/
structure WeakOrd {α : Type} (lt : α → α → Bool) : Prop where
  asymm : ∀ a b, lt a b = true → lt b a = false
  trans : ∀ a b c, lt b a = false → lt c b = false → lt c a = false

theorem weakOrd_strLt : WeakOrd strLt where
  asymm a b h := by
    rw [strLt_false]
    exact List.lt_asymm (strLt_iff.1 h)
  trans a b c h1 h2 := by
    rw [strLt_false] at *
    exact List.not_lt.2 (List.le_trans (List.not_lt.1 h1) (List.not_lt.1 h2))

theorem weakOrd_group : WeakOrd Group.lt where
  asymm a b h := weakOrd_strLt.asymm a.name b.name h
  trans a b c h1 h2 := weakOrd_strLt.trans a.name b.name c.name h1 h2

theorem insertBy_sorted {α : Type} {lt : α → α → Bool} (w : WeakOrd lt) (x : α) (l : List α)
    (h : l.Pairwise fun a b => lt b a = false) : (insertBy lt x l).Pairwise fun a b => lt b a = false := by
  induction l with
  | nil => simp [insertBy]
  | cons z t ih =>
    rw [List.pairwise_cons] at h
    rw [insertBy]
    split
    · rename_i hz
      rw [List.pairwise_cons]
      refine ⟨?_, ih h.2⟩
      intro y hy
      rcases mem_insertBy.1 hy with rfl | hy
      · exact w.asymm _ _ hz
      · exact h.1 y hy
    · rename_i hz
      rw [List.pairwise_cons]
      refine ⟨?_, List.pairwise_cons.2 h⟩
      intro y hy
      rcases List.mem_cons.1 hy with rfl | hy
      · simpa using hz
      · exact w.trans _ _ _ (by simpa using hz) (h.1 y hy)

theorem sortBy_sorted {α : Type} {lt : α → α → Bool} (w : WeakOrd lt) (l : List α) :
    (sortBy lt l).Pairwise fun a b => lt b a = false := by
  induction l with
  | nil => exact .nil
  | cons z t ih => exact insertBy_sorted w z _ ih

theorem sortBy_of_sorted {α : Type} {lt : α → α → Bool} (l : List α)
    (h : l.Pairwise fun a b => lt b a = false) : sortBy lt l = l := by
  induction l with
  | nil => rfl
  | cons z t ih =>
    rw [List.pairwise_cons] at h
    rw [show sortBy lt (z :: t) = insertBy lt z (sortBy lt t) from rfl, ih h.2]
    cases t with
    | nil => rfl
    | cons y s =>
      rw [insertBy, if_neg]
      simp [h.1 y (by simp)]

theorem mem_toSet {x : Str} {l : List Str} : x ∈ toSet l ↔ x ∈ l := by
  induction l with
  | nil => simp [toSet]
  | cons z t ih =>
    rw [show toSet (z :: t) = if z ∈ toSet t then toSet t else z :: toSet t from rfl]
    split
    · rename_i h
      rw [ih]
      simp only [List.mem_cons]
      exact ⟨Or.inr, fun h' => h'.elim (fun e => e ▸ ih.1 (e ▸ h)) id⟩
    · simp [ih]

theorem toSet_nodup (l : List Str) : (toSet l).Nodup := by
  induction l with
  | nil => exact .nil
  | cons z t ih =>
    rw [show toSet (z :: t) = if z ∈ toSet t then toSet t else z :: toSet t from rfl]
    split
    · exact ih
    · rename_i h
      exact List.nodup_cons.2 ⟨h, ih⟩

theorem mem_sortedSet {x : Str} {l : List Str} : x ∈ sortedSet l ↔ x ∈ l := by
  rw [sortedSet, mem_sortBy, mem_toSet]

theorem sortedSet_lt (l : List Str) : (sortedSet l).Pairwise (· < ·) := by
  have h1 := sortBy_sorted weakOrd_strLt (toSet l)
  have h2 : (sortBy strLt (toSet l)).Nodup := (sortBy_perm _).nodup_iff.2 (toSet_nodup l)
  have := h1.and h2
  refine this.imp ?_
  intro a b ⟨hab, hne⟩
  rw [strLt_false] at hab
  by_cases h : a < b
  · exact h
  · exact absurd (List.le_antisymm (List.not_lt.1 hab) (List.not_lt.1 h)) hne

/-- A strictly ascending list is determined by its members. -/
theorem ascending_ext {l m : List Str} (hl : l.Pairwise (· < ·)) (hm : m.Pairwise (· < ·))
    (h : ∀ x, x ∈ l ↔ x ∈ m) : l = m := by
  induction l generalizing m with
  | nil =>
    cases m with
    | nil => rfl
    | cons y t => exact absurd ((h y).2 (by simp)) (by simp)
  | cons x t ih =>
    cases m with
    | nil => exact absurd ((h x).1 (by simp)) (by simp)
    | cons y s =>
      rw [List.pairwise_cons] at hl hm
      have hxy : x = y := by
        rcases List.mem_cons.1 ((h x).1 (by simp)) with e | hx
        · exact e
        · rcases List.mem_cons.1 ((h y).2 (by simp)) with e | hy
          · exact e.symm
          · exact absurd (hl.1 y hy) (List.lt_asymm (hm.1 x hx))
      subst hxy
      congr 1
      refine ih hl.2 hm.2 fun z => ?_
      have := h z
      simp only [List.mem_cons] at this
      constructor
      · intro hz
        rcases this.1 (.inr hz) with e | h'
        · exact absurd (hl.1 z hz) (e ▸ List.lt_irrefl _)
        · exact h'
      · intro hz
        rcases this.2 (.inr hz) with e | h'
        · exact absurd (hm.1 z hz) (e ▸ List.lt_irrefl _)
        · exact h'

theorem sortedSet_of_ascending {l : List Str} (h : l.Pairwise (· < ·)) : sortedSet l = l :=
  ascending_ext (sortedSet_lt l) h fun _ => mem_sortedSet

/-! ## `add` -/

/-- Everything `processGroup` can do. -/
theorem processGroup_cases (p : Packages) (line : Str) :
    (∃ e, p.processGroup line = (p, some e)) ∨
    (∃ g, (p.processGroup line = (p, none) ∧ g ∈ p.groupList.map (·.name)) ∨
      ∃ m, p.processGroup line = ({ p with groupList := p.groupList ++ [⟨g, m⟩] }, none) ∧
        g ∉ p.groupList.map (·.name)) := by
  unfold Packages.processGroup
  split
  · exact .inl ⟨_, rfl⟩
  · rename_i ns extra _
    simp only
    split
    · exact .inl ⟨_, rfl⟩
    · right
      refine ⟨joinWith c!" " extra, ?_⟩
      split
      · rename_i h
        exact .inl ⟨rfl, h⟩
      · rename_i h
        right
        split
        · exact ⟨_, rfl, h⟩
        · split
          · exact ⟨_, rfl, h⟩
          · exact ⟨_, rfl, h⟩

/-- Only `environment` and `groupList` differ. -/
structure Packages.SameLists (p q : Packages) : Prop where
  packageList : q.packageList = p.packageList
  excludedList : q.excludedList = p.excludedList
  excludedGroupList : q.excludedGroupList = p.excludedGroupList

theorem Packages.SameLists.refl (p : Packages) : p.SameLists p := ⟨rfl, rfl, rfl⟩
theorem Packages.SameLists.trans {p q r : Packages} (h : p.SameLists q) (h' : q.SameLists r) : p.SameLists r :=
  ⟨h'.1.trans h.1, h'.2.trans h.2, h'.3.trans h.3⟩

theorem processGroup_same (p : Packages) (line : Str) : p.SameLists (p.processGroup line).1 := by
  rcases processGroup_cases p line with ⟨e, h⟩ | ⟨g, ⟨h, _⟩ | ⟨m, h, _⟩⟩ <;> rw [h] <;> exact ⟨rfl, rfl, rfl⟩

theorem addLine_same (p : Packages) (acc : AddAcc) (l : Str) : p.SameLists (p.addLine acc l).1.1 := by
  unfold Packages.addLine
  simp only
  split
  · exact ⟨rfl, rfl, rfl⟩
  · split
    · exact .refl _
    · rename_i r _
      have := processGroup_same p r
      split <;> rename_i h <;> rw [h] at this <;> exact this
    · split
      · exact ⟨rfl, rfl, rfl⟩
      · split <;> exact .refl _
    · exact .refl _

theorem addLoop_same (p : Packages) (acc : AddAcc) (ls : List Str) : p.SameLists (p.addLoop acc ls).1.1 := by
  induction ls generalizing p acc with
  | nil => exact .refl _
  | cons l ls ih =>
    have h := addLine_same p acc l
    rw [Packages.addLoop]
    split
    · rename_i q acc' hq
      rw [hq] at h
      exact h.trans (ih q acc')
    · rename_i r e hq
      rw [hq] at h
      exact h

/-- A failing `add` leaves the package lists and the excluded groups alone. -/
theorem add_error_same {p : Packages} {ls : List Str} {q : Packages} {e : Exc} (h : p.add ls = (q, some e)) :
    p.SameLists q := by
  have := addLoop_same p {} ls
  unfold Packages.add at h
  split at h
  · rename_i h'
    rw [h'] at this
    simp only [Prod.mk.injEq] at h
    obtain ⟨rfl, _⟩ := h
    exact this
  · simp at h

/-! ## What one line says -/

/-- The forms of a package line (`bad`: nothing, or a lone `-`). -/
inductive LineKind
  | bad
  | env (e : Str)
  | group (r : Str)
  | dropAt (g : Str)
  | drop (r : Str)
  | pkg (s : Str)

/-- The form of a stripped line. -/
def lineKind : Str → LineKind
  | [] => .bad
  | c :: r =>
    if c = '@' then (if r.head? = some '^' then .env r.tail else .group r)
    else if c = '-' then
      match r with
      | [] => .bad
      | d :: g => if d = '@' then .dropAt g else .drop r
    else .pkg (c :: r)

theorem addLine_eq (p : Packages) (acc : AddAcc) (l : Str) :
    p.addLine acc l = match lineKind (strip l) with
      | .bad => ((p, acc), some .index)
      | .env e => (({ p with environment := some e }, acc), none)
      | .group r => (((p.processGroup r).1, acc), (p.processGroup r).2)
      | .dropAt g =>
        if g.head? = some '^' ∧ p.environment = some g.tail then (({ p with environment := none }, acc), none)
        else ((p, { acc with excludedGroups := acc.excludedGroups ++ [⟨g, .default⟩] }), none)
      | .drop r => ((p, { acc with newExcluded := acc.newExcluded ++ [r] }), none)
      | .pkg s => ((p, { acc with newPackages := acc.newPackages ++ [s] }), none) := by
  unfold Packages.addLine
  simp only
  generalize strip l = s
  rcases s with _ | ⟨c, s⟩
  · rfl
  · by_cases h1 : c = '@'
    · subst h1
      rcases s with _ | ⟨d, s⟩
      · simp only [lineKind, List.take]
        rw [if_neg (by decide)]
        split <;> rename_i h <;> simp [h]
      · by_cases h2 : d = '^'
        · subst h2; simp [lineKind]
        · rw [if_neg (by simpa using h2)]
          simp only [lineKind, if_true, List.head?_cons, Option.some.injEq, h2, if_false]
          split <;> rename_i h <;> simp [h]
    · rw [if_neg (by simp [h1])]
      by_cases h2 : c = '-'
      · subst h2
        rcases s with _ | ⟨d, s⟩
        · simp [lineKind]
        · by_cases h3 : d = '@'
          · subst h3
            have : lineKind ('-' :: '@' :: s) = .dropAt s := by simp [lineKind]
            rw [this]
            simp only
            rcases s with _ | ⟨e, s⟩
            · simp
            · by_cases h4 : e = '^'
              · subst h4; simp
              · simp [h4]
          · have : lineKind ('-' :: d :: s) = .drop (d :: s) := by simp [lineKind, h3]
            rw [this]
            simp only
            rw [if_neg (by simp [h3])]
            split
            · rename_i h; simp at h
            · rename_i h
              simp only [List.cons.injEq] at h
              exact absurd h.1 h3
            · rfl
      · have : lineKind (c :: s) = .pkg (c :: s) := by simp [lineKind, h1, h2]
        rw [this]
        split
        · rename_i h; simp at h
        · rename_i h; simp_all
        · rename_i h; simp_all
        · rfl

/-- The line names package `p`: the line is `p` itself, not starting with `@` or `-`. -/
def NamesPkg (p l : Str) : Prop := strip l = p ∧ p ≠ [] ∧ p.head? ≠ some '@' ∧ p.head? ≠ some '-'

/-- The line excludes package `p`: `-p`. -/
def DropsPkg (p l : Str) : Prop := strip l = '-' :: p ∧ p ≠ [] ∧ p.head? ≠ some '@'

/-- The line chooses environment `e`: `@^e`. -/
def NamesEnv (e l : Str) : Prop := strip l = c!"@^" ++ e

/-- The line cancels environment `e`: `-@^e`. -/
def DropsEnv (e l : Str) : Prop := strip l = c!"-@^" ++ e

/-- The line excludes group `g`: `-@g`. -/
def DropsGroup (g l : Str) : Prop := strip l = c!"-@" ++ g

instance (p l : Str) : Decidable (NamesPkg p l) := by unfold NamesPkg; infer_instance
instance (p l : Str) : Decidable (DropsPkg p l) := by unfold DropsPkg; infer_instance
instance (p l : Str) : Decidable (NamesEnv p l) := by unfold NamesEnv; infer_instance
instance (p l : Str) : Decidable (DropsEnv p l) := by unfold DropsEnv; infer_instance
instance (p l : Str) : Decidable (DropsGroup p l) := by unfold DropsGroup; infer_instance

theorem head_tail {s : Str} {c : Char} (h : s.head? = some c) : s = c :: s.tail := by
  cases s with
  | nil => simp at h
  | cons d t => simp at h; simp [h]

theorem kind_pkg {l p : Str} : lineKind (strip l) = .pkg p ↔ NamesPkg p l := by
  unfold lineKind NamesPkg
  generalize strip l = s
  rcases s with _ | ⟨c, r⟩
  · simp only [reduceCtorEq, false_iff]; rintro ⟨rfl, h, _⟩; exact h rfl
  · simp only
    split
    · rename_i h; subst h
      constructor
      · intro h; split at h <;> simp at h
      · rintro ⟨rfl, _, h, _⟩; simp at h
    · split
      · rename_i h; subst h
        constructor
        · intro h; split at h
          · simp at h
          · split at h <;> simp at h
        · rintro ⟨rfl, _, _, h⟩; simp at h
      · rename_i h1 h2
        constructor
        · intro h; cases h; simp [h1, h2]
        · rintro ⟨rfl, _⟩; rfl

theorem kind_drop {l p : Str} : lineKind (strip l) = .drop p ↔ DropsPkg p l := by
  unfold lineKind DropsPkg
  generalize strip l = s
  rcases s with _ | ⟨c, r⟩
  · simp
  · simp only [List.cons.injEq]
    split
    · rename_i h; subst h
      constructor
      · intro h; split at h <;> simp at h
      · rintro ⟨⟨h, _⟩, _⟩; simp at h
    · split
      · rename_i h; subst h
        cases r with
        | nil => simp only [reduceCtorEq, true_and, false_iff]; rintro ⟨rfl, h, _⟩; exact h rfl
        | cons d g =>
          simp only
          split
          · rename_i h; subst h
            simp only [reduceCtorEq, true_and, false_iff]; rintro ⟨rfl, _, h⟩; simp at h
          · rename_i hd
            constructor
            · intro h; cases h; simp [hd]
            · rintro ⟨⟨_, rfl⟩, _⟩; rfl
      · rename_i h1 h2; simp [h2]

theorem kind_env {l e : Str} : lineKind (strip l) = .env e ↔ NamesEnv e l := by
  unfold lineKind NamesEnv
  generalize strip l = s
  rcases s with _ | ⟨c, r⟩
  · simp
  · simp only [List.cons_append, List.nil_append, List.cons.injEq]
    split
    · rename_i h; subst h
      split
      · rename_i h
        rw [head_tail h]
        simp
      · rename_i h
        simp only [reduceCtorEq, true_and, false_iff]; rintro rfl; simp at h
    · split
      · split
        · simp_all
        · split <;> simp_all
      · simp_all

theorem kind_dropAt {l g : Str} : lineKind (strip l) = .dropAt g ↔ DropsGroup g l := by
  unfold lineKind DropsGroup
  generalize strip l = s
  rcases s with _ | ⟨c, r⟩
  · simp
  · simp only [List.cons_append, List.nil_append, List.cons.injEq]
    split
    · rename_i h; subst h; split <;> simp
    · split
      · rename_i h; subst h
        split
        · simp
        · split <;> simp_all
      · simp_all

/-! ## The loop -/

/-- What a successful loop collected. -/
theorem addLoop_ok {p : Packages} {acc : AddAcc} {ls : List Str} {q : Packages} {acc' : AddAcc}
    (h : p.addLoop acc ls = ((q, acc'), none)) :
    (∀ x, x ∈ acc'.newPackages ↔ x ∈ acc.newPackages ∨ ∃ l ∈ ls, NamesPkg x l) ∧
    (∀ x, x ∈ acc'.newExcluded ↔ x ∈ acc.newExcluded ∨ ∃ l ∈ ls, DropsPkg x l) := by
  induction ls generalizing p acc with
  | nil =>
    simp only [Packages.addLoop, Prod.mk.injEq] at h
    obtain ⟨⟨rfl, rfl⟩, _⟩ := h
    simp
  | cons l ls ih =>
    rw [Packages.addLoop, addLine_eq] at h
    have key : ∀ (q : Packages) (a : AddAcc), Packages.addLoop q a ls = ((_, acc'), none) → _ := fun q a h => ih h
    have k1 := fun x => kind_pkg (l := l) (p := x)
    have k2 := fun x => kind_drop (l := l) (p := x)
    generalize lineKind (strip l) = k at *
    have nopkg : (∀ x, k ≠ .pkg x) → ∀ x, ¬ NamesPkg x l := fun h x hx => h x ((k1 x).2 hx)
    have nodrop : (∀ x, k ≠ .drop x) → ∀ x, ¬ DropsPkg x l := fun h x hx => h x ((k2 x).2 hx)
    have fin : (∀ x, k ≠ .pkg x) → (∀ x, k ≠ .drop x) → ∀ (q' : Packages) (a : AddAcc), a.newPackages = acc.newPackages →
        a.newExcluded = acc.newExcluded → Packages.addLoop q' a ls = ((q, acc'), none) →
        (∀ x, x ∈ acc'.newPackages ↔ x ∈ acc.newPackages ∨ ∃ l' ∈ l :: ls, NamesPkg x l') ∧
        (∀ x, x ∈ acc'.newExcluded ↔ x ∈ acc.newExcluded ∨ ∃ l' ∈ l :: ls, DropsPkg x l') := by
      intro h1 h2 q' a e1 e2 h
      have := ih h
      rw [e1, e2] at this
      simp only [List.mem_cons, exists_eq_or_imp, nopkg h1, nodrop h2, false_or]
      exact this
    cases k with
    | bad => simp at h
    | env e => exact fin (by simp) (by simp) _ _ rfl rfl h
    | group r =>
      simp only at h
      generalize p.processGroup r = pr at h
      obtain ⟨p', o⟩ := pr
      cases o with
      | none => exact fin (by simp) (by simp) _ _ rfl rfl h
      | some e => simp at h
    | dropAt g =>
      simp only at h
      split at h
      · rename_i heq
        split at heq <;> simp only [Prod.mk.injEq] at heq
        · obtain ⟨⟨rfl, rfl⟩, _⟩ := heq
          exact fin (by simp) (by simp) _ _ rfl rfl h
        · obtain ⟨⟨rfl, rfl⟩, _⟩ := heq
          exact fin (by simp) (by simp) _ ⟨acc.newExcluded, acc.newPackages, acc.excludedGroups ++ [⟨g, .default⟩]⟩ rfl rfl h
      · rename_i heq
        simp at h
    | drop r =>
      have := ih h
      simp only [List.mem_append, List.mem_cons, exists_eq_or_imp, nopkg (by simp), false_or] at this ⊢
      refine ⟨this.1, fun x => ?_⟩
      rw [this.2 x, or_assoc, ← k2 x]
      simp only [LineKind.drop.injEq, List.not_mem_nil, or_false]
      constructor <;> rintro (h | h | h) <;> simp_all
    | pkg s =>
      have := ih h
      simp only [List.mem_append, List.mem_cons, exists_eq_or_imp, nodrop (by simp), false_or] at this ⊢
      refine ⟨fun x => ?_, this.2⟩
      rw [this.1 x, or_assoc, ← k1 x]
      simp only [LineKind.pkg.injEq, List.not_mem_nil, or_false]
      constructor <;> rintro (h | h | h) <;> simp_all

/-- The package lists after a successful `add`. -/
theorem add_ok_lists {p q : Packages} {ls : List Str} (h : p.add ls = (q, none)) :
    (∀ x, x ∈ q.packageList ↔ (∃ l ∈ ls, NamesPkg x l) ∨ (x ∈ p.packageList ∧ ¬ ∃ l ∈ ls, DropsPkg x l)) ∧
    (∀ x, x ∈ q.excludedList ↔ (∃ l ∈ ls, DropsPkg x l) ∨ (x ∈ p.excludedList ∧ x ∉ q.packageList)) := by
  unfold Packages.add at h
  split at h
  · simp at h
  · rename_i p' acc hl
    obtain ⟨h1, h2⟩ := addLoop_ok hl
    simp only [Prod.mk.injEq, and_true] at h
    subst h
    have hp : ∀ x, x ∈ (p'.addFinish acc p.packageList p.excludedList).packageList ↔
        (∃ l ∈ ls, NamesPkg x l) ∨ (x ∈ p.packageList ∧ ¬ ∃ l ∈ ls, DropsPkg x l) := by
      intro x
      simp only [Packages.addFinish, mem_sortedSet, List.mem_append, List.mem_filter, decide_eq_true_eq, h1, h2,
        List.not_mem_nil, false_or]
      exact or_comm
    refine ⟨hp, fun x => ?_⟩
    simp only [Packages.addFinish, mem_sortedSet, List.mem_append, List.mem_filter, decide_eq_true_eq, h2,
      List.not_mem_nil, false_or]
    exact or_comm

/-! ## Environment -/

/-- What one line does to the environment. -/
def envStep (cur : Option Str) (l : Str) : Option Str :=
  match lineKind (strip l) with
  | .env e => some e
  | .dropAt g => if g.head? = some '^' ∧ cur = some g.tail then none else cur
  | _ => cur

theorem processGroup_env (p : Packages) (r : Str) : (p.processGroup r).1.environment = p.environment := by
  rcases processGroup_cases p r with ⟨e, h⟩ | ⟨g, ⟨h, _⟩ | ⟨m, h, _⟩⟩ <;> rw [h]

theorem addLine_env (p : Packages) (acc : AddAcc) (l : Str) :
    (p.addLine acc l).1.1.environment = envStep p.environment l := by
  rw [addLine_eq, envStep]
  cases lineKind (strip l) with
  | group r => exact processGroup_env p r
  | dropAt g => simp only; split <;> rfl
  | _ => rfl

theorem addLoop_env {p : Packages} {acc : AddAcc} {ls : List Str} {r} (h : p.addLoop acc ls = (r, none)) :
    r.1.environment = ls.foldl envStep p.environment := by
  induction ls generalizing p acc with
  | nil => simp only [Packages.addLoop, Prod.mk.injEq] at h; rw [← h.1]; rfl
  | cons l ls ih =>
    have hl := addLine_env p acc l
    rw [Packages.addLoop] at h
    split at h
    · rename_i q a hq
      rw [hq] at hl
      rw [ih h, List.foldl_cons, ← hl]
    · simp at h

theorem add_env {p q : Packages} {ls : List Str} (h : p.add ls = (q, none)) :
    q.environment = ls.foldl envStep p.environment := by
  unfold Packages.add at h
  split at h
  · simp at h
  · rename_i hl
    simp only [Prod.mk.injEq, and_true] at h
    subst h
    exact addLoop_env hl

theorem add_one_env (p : Packages) (l : Str) : (p.add [l]).1.environment = envStep p.environment l := by
  have hl := addLine_env p {} l
  unfold Packages.add Packages.addLoop
  split
  · rename_i h
    split at h
    · simp [Packages.addLoop] at h
    · rename_i h'
      simp only [Prod.mk.injEq] at h
      rw [h'] at hl
      rw [← hl, h.1]
  · rename_i h
    split at h
    · rename_i h'
      simp only [Packages.addLoop, Prod.mk.injEq] at h
      rw [h'] at hl
      rw [← hl, ← h.1.1]
      rfl
    · simp at h

theorem envStep_iff (cur : Option Str) (l e : Str) :
    envStep cur l = some e ↔ NamesEnv e l ∨ (cur = some e ∧ (∀ e', ¬ NamesEnv e' l) ∧ ¬ DropsEnv e l) := by
  unfold envStep
  simp only [← kind_env]
  have hd : DropsEnv e l ↔ lineKind (strip l) = .dropAt ('^' :: e) := by
    rw [kind_dropAt]; rfl
  rw [hd]
  cases lineKind (strip l) with
  | env e' => simp
  | dropAt g =>
    simp only [reduceCtorEq, not_false_eq_true, implies_true, true_and, false_or, LineKind.dropAt.injEq]
    split
    · rename_i h
      obtain ⟨h1, h2⟩ := h
      simp only [reduceCtorEq, false_iff, not_and, Classical.not_not]
      intro h3
      rw [h3] at h2
      rw [head_tail h1, Option.some.inj h2]
    · rename_i h
      constructor
      · intro hc
        refine ⟨hc, ?_⟩
        rintro rfl
        exact h ⟨rfl, hc⟩
      · exact fun h => h.1
  | _ => simp

theorem foldl_envStep_iff (cur : Option Str) (ls : List Str) (e : Str) :
    ls.foldl envStep cur = some e ↔
      (∃ a l b, ls = a ++ l :: b ∧ NamesEnv e l ∧ ∀ m ∈ b, (∀ e', ¬ NamesEnv e' m) ∧ ¬ DropsEnv e m) ∨
      (cur = some e ∧ ∀ m ∈ ls, (∀ e', ¬ NamesEnv e' m) ∧ ¬ DropsEnv e m) := by
  induction ls generalizing cur with
  | nil => simp
  | cons l ls ih =>
    rw [List.foldl_cons, ih, envStep_iff]
    constructor
    · rintro (⟨a, m, b, rfl, h1, h2⟩ | ⟨h1 | ⟨h1, h2⟩, h3⟩)
      · exact .inl ⟨l :: a, m, b, rfl, h1, h2⟩
      · exact .inl ⟨[], l, ls, rfl, h1, h3⟩
      · refine .inr ⟨h1, ?_⟩
        intro m hm
        rcases List.mem_cons.1 hm with rfl | hm
        · exact h2
        · exact h3 m hm
    · rintro (⟨a, m, b, h, h1, h2⟩ | ⟨h1, h2⟩)
      · cases a with
        | nil =>
          simp only [List.nil_append, List.cons.injEq] at h
          obtain ⟨rfl, rfl⟩ := h
          exact .inr ⟨.inl h1, h2⟩
        | cons x a =>
          simp only [List.cons_append, List.cons.injEq] at h
          obtain ⟨rfl, rfl⟩ := h
          exact .inl ⟨a, m, b, rfl, h1, h2⟩
      · exact .inr ⟨.inr ⟨h1, h2 l (by simp)⟩, fun m hm => h2 m (by simp [hm])⟩

/-! ## Groups -/

/-- The loop only appends to `groupList`, new names only. -/
structure GroupsGrow (p q : Packages) : Prop where
  keep : ∀ g ∈ p.groupList, g ∈ q.groupList
  nodup : (p.groupList.map (·.name)).Nodup → (q.groupList.map (·.name)).Nodup

theorem GroupsGrow.refl (p : Packages) : GroupsGrow p p := ⟨fun _ h => h, fun h => h⟩
theorem GroupsGrow.of_eq {p q : Packages} (h : q.groupList = p.groupList) : GroupsGrow p q :=
  ⟨by rw [h]; exact fun _ h => h, by rw [h]; exact fun h => h⟩
theorem GroupsGrow.trans {p q r : Packages} (h : GroupsGrow p q) (h' : GroupsGrow q r) : GroupsGrow p r :=
  ⟨fun g hg => h'.keep g (h.keep g hg), fun hn => h'.nodup (h.nodup hn)⟩

theorem processGroup_grow (p : Packages) (r : Str) : GroupsGrow p (p.processGroup r).1 := by
  rcases processGroup_cases p r with ⟨e, h⟩ | ⟨g, ⟨h, _⟩ | ⟨m, h, hn⟩⟩ <;> rw [h]
  · exact .refl _
  · exact .refl _
  · refine ⟨fun g' hg => by simp [hg], fun hd => ?_⟩
    simp only [List.map_append, List.map_cons, List.map_nil]
    refine List.nodup_append.2 ⟨hd, by simp, ?_⟩
    intro a ha b hb
    simp only [List.mem_singleton] at hb
    rintro rfl
    subst hb
    exact hn ha

theorem addLine_grow (p : Packages) (acc : AddAcc) (l : Str) : GroupsGrow p (p.addLine acc l).1.1 := by
  rw [addLine_eq]
  cases lineKind (strip l) with
  | group r => exact processGroup_grow p r
  | env e => exact .of_eq rfl
  | dropAt g => simp only; split <;> exact .of_eq rfl
  | _ => exact .refl _

theorem addLoop_grow (p : Packages) (acc : AddAcc) (ls : List Str) : GroupsGrow p (p.addLoop acc ls).1.1 := by
  induction ls generalizing p acc with
  | nil => exact .refl _
  | cons l ls ih =>
    have hl := addLine_grow p acc l
    rw [Packages.addLoop]
    split
    · rename_i q a hq
      rw [hq] at hl
      exact hl.trans (ih q a)
    · rename_i hq
      rw [hq] at hl
      exact hl

/-- The groups excluded in a batch, in order. -/
theorem addLoop_excluded {p : Packages} {acc : AddAcc} {ls : List Str} {q : Packages} {acc' : AddAcc}
    (h : p.addLoop acc ls = ((q, acc'), none)) :
    (∀ g ∈ acc'.excludedGroups, g ∈ acc.excludedGroups ∨ ∃ l ∈ ls, DropsGroup g.name l) ∧
    (∀ l ∈ ls, ∀ n, DropsGroup n l → n.head? ≠ some '^' → ∃ g ∈ acc'.excludedGroups, g.name = n) ∧
    (∀ g ∈ acc.excludedGroups, g ∈ acc'.excludedGroups) ∧
    ((∀ l ∈ ls, ∀ e, ¬ DropsEnv e l) →
      acc'.excludedGroups = acc.excludedGroups ++
        ((ls.filter fun l => startsWith (strip l) c!"-@").map fun l => ⟨(strip l).drop 2, .default⟩)) := by
  induction ls generalizing p acc with
  | nil =>
    simp only [Packages.addLoop, Prod.mk.injEq] at h
    obtain ⟨⟨rfl, rfl⟩, _⟩ := h
    refine ⟨fun g hg => .inl hg, by simp, fun _ h => h, by simp⟩
  | cons l ls ih =>
    rw [Packages.addLoop, addLine_eq] at h
    have k1 := fun g => kind_dropAt (l := l) (g := g)
    -- a line that is not of the form `-@...`
    have other : (∀ g, lineKind (strip l) ≠ .dropAt g) → ∀ (q' : Packages) (a : AddAcc),
        a.excludedGroups = acc.excludedGroups →
        Packages.addLoop q' a ls = ((q, acc'), none) →
        (∀ g ∈ acc'.excludedGroups, g ∈ acc.excludedGroups ∨ ∃ l' ∈ l :: ls, DropsGroup g.name l') ∧
        (∀ l' ∈ l :: ls, ∀ n, DropsGroup n l' → n.head? ≠ some '^' → ∃ g ∈ acc'.excludedGroups, g.name = n) ∧
        (∀ g ∈ acc.excludedGroups, g ∈ acc'.excludedGroups) ∧
        ((∀ l' ∈ l :: ls, ∀ e, ¬ DropsEnv e l') →
          acc'.excludedGroups = acc.excludedGroups ++
            (((l :: ls).filter fun l => startsWith (strip l) c!"-@").map fun l => ⟨(strip l).drop 2, .default⟩)) := by
      intro hno q' a ea h
      obtain ⟨h1, h2, h3, h4⟩ := ih h
      rw [ea] at h1 h3 h4
      refine ⟨?_, ?_, h3, ?_⟩
      · intro g hg
        rcases h1 g hg with h | ⟨l', hl', h⟩
        · exact .inl h
        · exact .inr ⟨l', by simp [hl'], h⟩
      · intro l' hl' n hn hh
        rcases List.mem_cons.1 hl' with rfl | hl'
        · exact absurd ((k1 n).2 hn) (hno n)
        · exact h2 l' hl' n hn hh
      · intro hne
        rw [h4 fun l' hl' => hne l' (by simp [hl']), List.filter_cons_of_neg]
        intro hs
        obtain ⟨t, ht⟩ := startsWith_iff.1 hs
        exact hno t ((k1 t).2 ht)
    cases hk : lineKind (strip l) with
    | bad => rw [hk] at h; simp at h
    | env e => rw [hk] at h; exact other (by simp [hk]) _ acc rfl h
    | group r =>
      rw [hk] at h
      simp only at h
      generalize p.processGroup r = pr at h
      obtain ⟨p', o⟩ := pr
      cases o with
      | none => exact other (by simp [hk]) _ acc rfl h
      | some e => simp at h
    | drop r => rw [hk] at h; exact other (by simp [hk]) _ ⟨acc.newExcluded ++ [r], acc.newPackages, acc.excludedGroups⟩ rfl h
    | pkg s => rw [hk] at h; exact other (by simp [hk]) _ ⟨acc.newExcluded, acc.newPackages ++ [s], acc.excludedGroups⟩ rfl h
    | dropAt g =>
      have hg : DropsGroup g l := (k1 g).1 hk
      rw [hk] at h
      simp only at h
      by_cases hc : g.head? = some '^' ∧ p.environment = some g.tail
      · rw [if_pos hc] at h
        simp only at h
        obtain ⟨h1, h2, h3, h4⟩ := ih h
        refine ⟨?_, ?_, h3, ?_⟩
        · intro g' hg'
          rcases h1 g' hg' with h | ⟨l', hl', h⟩
          · exact .inl h
          · exact .inr ⟨l', by simp [hl'], h⟩
        · intro l' hl' n hn hh
          rcases List.mem_cons.1 hl' with rfl | hl'
          · have : LineKind.dropAt g = .dropAt n := hk ▸ (k1 n).2 hn
            simp only [LineKind.dropAt.injEq] at this
            exact absurd (this ▸ hc.1) hh
          · exact h2 l' hl' n hn hh
        · intro hne
          refine absurd ?_ (hne l (by simp) g.tail)
          unfold DropsEnv
          rw [hg, head_tail hc.1]
          rfl
      · rw [if_neg hc] at h
        simp only at h
        obtain ⟨h1, h2, h3, h4⟩ := ih h
        simp only [List.mem_append, List.mem_singleton] at h1 h3
        refine ⟨?_, ?_, fun g' hg' => h3 g' (.inl hg'), ?_⟩
        · intro g' hg'
          rcases h1 g' hg' with (h | h) | ⟨l', hl', h⟩
          · exact .inl h
          · exact .inr ⟨l, by simp, h ▸ hg⟩
          · exact .inr ⟨l', by simp [hl'], h⟩
        · intro l' hl' n hn hh
          rcases List.mem_cons.1 hl' with rfl | hl'
          · have : LineKind.dropAt g = .dropAt n := hk ▸ (k1 n).2 hn
            simp only [LineKind.dropAt.injEq] at this
            subst this
            exact ⟨⟨g, .default⟩, h3 _ (.inr rfl), rfl⟩
          · exact h2 l' hl' n hn hh
        · intro hne
          rw [h4 fun l' hl' => hne l' (by simp [hl']), List.filter_cons_of_pos]
          · rw [List.map_cons, List.append_assoc, List.singleton_append, hg]
            rfl
          · rw [hg]; exact startsWith_iff.2 ⟨g, rfl⟩

/-! ## Group lines -/

/-- What is written after a group's name. -/
def GroupMode.suffix : GroupMode → Str
  | .required => c!" --nodefaults"
  | .all => c!" --optional"
  | .default => []

theorem Group.str_eq (g : Group) : g.str = c!"@" ++ g.name ++ g.mode.suffix := by
  unfold Group.str GroupMode.suffix
  cases g.mode <;> simp

theorem groupParser_built : groupParser.Built := by
  unfold groupParser OptParser.addAll
  simp only [List.foldl_cons, List.foldl_nil]
  repeat (refine OptParser.Built.add ?_ (by decide))
  exact .empty

/-- The token of a group mode. -/
def GroupMode.toks : GroupMode → List Tok
  | .required => [⟨c!"--nodefaults", none⟩]
  | .all => [⟨c!"--optional", none⟩]
  | .default => []

theorem groupParser_fits (m : GroupMode) : ∀ t ∈ m.toks, t.Fits groupParser := by
  intro t ht
  cases m with
  | default => simp [GroupMode.toks] at ht
  | required =>
    simp only [GroupMode.toks, List.mem_singleton] at ht; subst ht
    exact ⟨_, List.mem_cons_self, by rfl⟩
  | all =>
    simp only [GroupMode.toks, List.mem_singleton] at ht; subst ht
    exact ⟨_, List.mem_cons_of_mem _ List.mem_cons_self, by rfl⟩

theorem groupParser_parse (ws : List Str) (h : ∀ w ∈ ws, startsWith w c!"-" = false) (m : GroupMode) :
    ∃ ns, groupParser.parseKnown none (ws ++ m.toks.map Tok.text) = .ok (ns, ws) ∧
      ns.getD c!"nodefaults" = .bool (m = .required) ∧ ns.getD c!"optional" = .bool (m = .all) := by
  rw [parseKnown_opts groupParser_built.wf none (by rfl) h (groupParser_fits m)]
  cases m <;> exact ⟨_, rfl, by decide +kernel, by decide +kernel⟩

theorem splitWs_suffix (s : Str) (m : GroupMode) : splitWs (s ++ m.suffix) = splitWs s ++ m.toks.map Tok.text := by
  cases m with
  | default => simp [GroupMode.suffix, GroupMode.toks]
  | required =>
    rw [show GroupMode.required.suffix = ' ' :: c!"--nodefaults" from rfl, splitWs_append_space (by decide)]
    rfl
  | all =>
    rw [show GroupMode.all.suffix = ' ' :: c!"--optional" from rfl, splitWs_append_space (by decide)]
    rfl

/-- `@name`, `@name --nodefaults`, `@name --optional`. -/
theorem processGroup_words (p : Packages) (ws : List Str)
    (h : ∀ w ∈ ws, IsWord w ∧ startsWith w c!"-" = false) (m : GroupMode) :
    p.processGroup (joinWith c!" " ws ++ m.suffix) =
      if joinWith c!" " ws ∈ p.groupList.map (·.name) then (p, none)
      else ({ p with groupList := p.groupList ++ [⟨joinWith c!" " ws, m⟩] }, none) := by
  obtain ⟨ns, h1, h2, h3⟩ := groupParser_parse ws (fun w hw => (h w hw).2) m
  unfold Packages.processGroup
  rw [splitWs_suffix, splitWs_joinWith fun w hw => (h w hw).1, h1]
  simp only [h2, h3]
  cases m <;> simp

end Ks
