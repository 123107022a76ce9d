import Verif.Handler
import Verif.ParserLemmas
import Verif.PackagesLemmas
/-!
# Lemmas about handlers: the registry and the order of writing
-/
namespace Ks

variable {σ δ : Type}

theorem str_trichotomy (a b : Str) : a < b ∨ a = b ∨ b < a := by
  by_cases h : a < b
  · exact .inl h
  · by_cases h' : b < a
    · exact .inr (.inr h')
    · exact .inr (.inl (List.le_antisymm (List.not_lt.1 h') (List.not_lt.1 h)))

theorem nodup_of_pairwise {α : Type} {R : α → α → Prop} (hirr : ∀ a, ¬ R a a) {l : List α} (hl : l.Pairwise R) : l.Nodup := by
  rw [List.nodup_iff_pairwise_ne]
  refine hl.imp ?_
  rintro a _ hab rfl
  exact hirr a hab

/-! ## Sorted insertion -/

theorem mem_insertSorted {name : Nat → Str} {r : Nat} {l : List Nat} (hs : l.Pairwise fun a b => name a < name b) {x : Nat} :
    x ∈ insertSorted name r l ↔ x = r ∨ (x ∈ l ∧ name x ≠ name r) := by
  induction l with
  | nil => simp [insertSorted]
  | cons y t ih =>
    rw [List.pairwise_cons] at hs
    rw [insertSorted]
    by_cases h1 : strLt (name y) (name r) = true
    · rw [if_pos h1, List.mem_cons, ih hs.2, List.mem_cons]
      have : name y ≠ name r := fun e => List.lt_irrefl _ (e ▸ strLt_iff.1 h1)
      constructor
      · rintro (rfl | h | h)
        · exact .inr ⟨.inl rfl, this⟩
        · exact .inl h
        · exact .inr ⟨.inr h.1, h.2⟩
      · rintro (h | ⟨rfl | h, hn⟩)
        · exact .inr (.inl h)
        · exact .inl rfl
        · exact .inr (.inr ⟨h, hn⟩)
    · rw [if_neg h1]
      by_cases h2 : name r = name y
      · rw [if_pos h2, List.mem_cons, List.mem_cons]
        constructor
        · rintro (h | h)
          · exact .inl h
          · refine .inr ⟨.inr h, fun e => ?_⟩
            have := hs.1 x h
            rw [e, h2] at this
            exact List.lt_irrefl _ this
        · rintro (h | ⟨rfl | h, hn⟩)
          · exact .inl h
          · exact absurd h2.symm hn
          · exact .inr h
      · rw [if_neg h2, List.mem_cons, List.mem_cons]
        have hlt : name r < name y := by
          rcases str_trichotomy (name r) (name y) with h | h | h
          · exact h
          · exact absurd h h2
          · exact absurd (strLt_iff.2 h) h1
        constructor
        · rintro (h | rfl | h)
          · exact .inl h
          · exact .inr ⟨.inl rfl, fun e => h2 e.symm⟩
          · exact .inr ⟨.inr h, fun e => List.lt_irrefl _ (e ▸ List.lt_trans hlt (hs.1 x h))⟩
        · rintro (h | ⟨h, _⟩)
          · exact .inl h
          · exact .inr h

theorem sorted_insertSorted {name : Nat → Str} {r : Nat} {l : List Nat} (hs : l.Pairwise fun a b => name a < name b) :
    (insertSorted name r l).Pairwise fun a b => name a < name b := by
  induction l with
  | nil => simp [insertSorted]
  | cons y t ih =>
    have hs' := List.pairwise_cons.1 hs
    rw [insertSorted]
    by_cases h1 : strLt (name y) (name r) = true
    · rw [if_pos h1, List.pairwise_cons]
      refine ⟨fun x hx => ?_, ih hs'.2⟩
      rcases (mem_insertSorted hs'.2).1 hx with rfl | h
      · exact strLt_iff.1 h1
      · exact hs'.1 x h.1
    · rw [if_neg h1]
      by_cases h2 : name r = name y
      · rw [if_pos h2, List.pairwise_cons]
        exact ⟨fun x hx => h2 ▸ hs'.1 x hx, hs'.2⟩
      · rw [if_neg h2, List.pairwise_cons]
        have hlt : name r < name y := by
          rcases str_trichotomy (name r) (name y) with h | h | h
          · exact h
          · exact absurd h h2
          · exact absurd (strLt_iff.2 h) h1
        refine ⟨fun x hx => ?_, hs⟩
        rcases List.mem_cons.1 hx with rfl | hx
        · exact hlt
        · exact List.lt_trans hlt (hs'.1 x hx)

theorem insertSorted_congr {f g : Nat → Str} {r : Nat} {l : List Nat} (hr : f r = g r) (h : ∀ x ∈ l, f x = g x) :
    insertSorted f r l = insertSorted g r l := by
  induction l with
  | nil => rfl
  | cons y t ih =>
    rw [insertSorted, insertSorted, hr, h y (by simp), ih fun x hx => h x (by simp [hx])]

/-! ## Well-formed handlers -/

/-- The priority of an object. -/
def Handler.prioOf (h : Handler σ δ) (r : Nat) : Option Int := h.heap[r]?.bind (·.cls.prio)

/-- The text of an object. -/
def Handler.text (h : Handler σ δ) (r : Nat) : Str :=
  match h.heap[r]? with
  | some o => o.cls.str o.inst
  | none => []

/-- The objects in the order in which they are written. -/
def Handler.written (h : Handler σ δ) : List Nat :=
  ((sortBy (fun a b => decide (a < b)) (h.writeOrder.map (·.1))).map fun p => (h.writeOrder.lookup p).getD []).flatten

/-- What holds of every handler that was built by the methods of the class. -/
structure Handler.Wf (h : Handler σ δ) : Prop where
  names : (h.commands.map Prod.fst).Nodup
  cmds : ∀ n r, h.commands.lookup n = some (some r) → r < h.heap.length
  attrs : ∀ a r, h.attrs.lookup a = some r → r < h.heap.length
  keys : (h.writeOrder.map Prod.fst).Nodup
  prio : ∀ p l, h.writeOrder.lookup p = some l → ∀ r ∈ l, h.prioOf r = some p
  sorted : ∀ p l, h.writeOrder.lookup p = some l → l.Pairwise fun a b => h.className a < h.className b

theorem Handler.str_eq (h : Handler σ δ) : h.str = (h.written.map h.text).flatten := by
  unfold Handler.str Handler.written
  rw [List.map_flatten, List.flatten_flatten, List.map_map, List.map_map]
  rfl

theorem lookup_isSome_of_key {α β : Type} [BEq α] [LawfulBEq α] [DecidableEq α] {k : α} {l : List (α × β)} (h : k ∈ l.map Prod.fst) : ∃ v, l.lookup k = some v := by
  induction l with
  | nil => simp at h
  | cons p t ih =>
    obtain ⟨k', v'⟩ := p
    rw [List.lookup_cons]
    by_cases hk : k = k'
    · subst hk; exact ⟨v', by simp⟩
    · simp only [List.map_cons, List.mem_cons, hk, false_or] at h
      obtain ⟨v, hv⟩ := ih h
      refine ⟨v, ?_⟩
      rw [show (k == k') = false by simpa using hk]
      exact hv

theorem key_of_lookup {α β : Type} [BEq α] [LawfulBEq α] [DecidableEq α] {k : α} {v : β} {l : List (α × β)} (h : l.lookup k = some v) : k ∈ l.map Prod.fst := by
  induction l with
  | nil => simp at h
  | cons p t ih =>
    obtain ⟨k', v'⟩ := p
    rw [List.lookup_cons] at h
    by_cases hk : k = k'
    · simp [hk]
    · rw [show (k == k') = false by simpa using hk] at h
      simp only [List.map_cons, List.mem_cons]
      exact .inr (ih h)

theorem mem_written {h : Handler σ δ} {r : Nat} : r ∈ h.written ↔ ∃ p l, h.writeOrder.lookup p = some l ∧ r ∈ l := by
  unfold Handler.written
  simp only [List.mem_flatten, List.mem_map, mem_sortBy]
  constructor
  · rintro ⟨l, ⟨p, _, rfl⟩, hr⟩
    cases hl : h.writeOrder.lookup p with
    | none => rw [hl] at hr; simp at hr
    | some l => rw [hl] at hr; exact ⟨p, l, hl, hr⟩
  · rintro ⟨p, l, hl, hr⟩
    refine ⟨l, ⟨p, ?_, by rw [hl]; rfl⟩, hr⟩
    have := key_of_lookup hl
    simpa using this

/-- The order of writing: by priority, then by class name. -/
def Handler.Before (h : Handler σ δ) (a b : Nat) : Prop :=
  ∃ p q, h.prioOf a = some p ∧ h.prioOf b = some q ∧ (p < q ∨ p = q ∧ h.className a < h.className b)

theorem intLt_weak : WeakOrd (fun a b : Int => decide (a < b)) where
  asymm a b h := by simp at *; omega
  trans a b c h1 h2 := by simp at *; omega

theorem sorted_keys (ks : List Int) (hn : ks.Nodup) : (sortBy (fun a b => decide (a < b)) ks).Pairwise (· < ·) := by
  have h1 := sortBy_sorted intLt_weak ks
  have h2 := (sortBy_perm (lt := fun a b : Int => decide (a < b)) ks).nodup_iff.2 hn
  rw [List.nodup_iff_pairwise_ne] at h2
  refine (h1.and h2).imp ?_
  rintro a b ⟨h, hne⟩
  simp at h
  omega

theorem written_sorted {h : Handler σ δ} (w : h.Wf) : h.written.Pairwise h.Before := by
  unfold Handler.written
  rw [List.pairwise_flatten]
  constructor
  · intro l hl
    obtain ⟨p, _, rfl⟩ := List.mem_map.1 hl
    cases hp : h.writeOrder.lookup p with
    | none => exact .nil
    | some l =>
      refine List.Pairwise.imp_of_mem ?_ (w.sorted p l hp)
      intro a b ha hb hab
      exact ⟨p, p, w.prio p l hp a ha, w.prio p l hp b hb, .inr ⟨rfl, hab⟩⟩
  · rw [List.pairwise_map]
    refine (sorted_keys _ w.keys).imp ?_
    intro p q hpq a ha b hb
    cases hp : h.writeOrder.lookup p with
    | none => rw [hp] at ha; simp at ha
    | some l =>
      cases hq : h.writeOrder.lookup q with
      | none => rw [hq] at hb; simp at hb
      | some m =>
        rw [hp] at ha; rw [hq] at hb
        exact ⟨p, q, w.prio p l hp a ha, w.prio q m hq b hb, .inl hpq⟩

theorem before_irrefl {h : Handler σ δ} {a : Nat} : ¬ h.Before a a := by
  rintro ⟨p, q, hp, hq, hc⟩
  rw [hp] at hq; cases hq
  rcases hc with h | ⟨_, h⟩
  · omega
  · exact List.lt_irrefl _ h

theorem written_nodup {h : Handler σ δ} (w : h.Wf) : h.written.Nodup :=
  nodup_of_pairwise (fun _ => before_irrefl) (written_sorted w)

theorem prio_of_written {h : Handler σ δ} (w : h.Wf) {r : Nat} (hr : r ∈ h.written) : ∃ p, h.prioOf r = some p := by
  obtain ⟨p, l, hl, hm⟩ := mem_written.1 hr
  exact ⟨p, w.prio p l hl r hm⟩

/-! ## Creating an object -/

theorem create_heap (h : Handler σ δ) (c : CmdClass σ δ) : (h.create c).1.heap = h.heap ++ [c.new] := by
  unfold Handler.create Handler.setCommand
  cases c.prio with
  | none => rfl
  | some p => simp only; split <;> rfl

theorem create_commands (h : Handler σ δ) (c : CmdClass σ δ) : (h.create c).1.commands = h.commands := by
  unfold Handler.create Handler.setCommand
  cases c.prio with
  | none => rfl
  | some p => simp only; split <;> rfl

theorem create_attrs (h : Handler σ δ) (c : CmdClass σ δ) : (h.create c).1.attrs = assocSet (attrName c.name) h.heap.length h.attrs := by
  unfold Handler.create Handler.setCommand
  cases c.prio with
  | none => rfl
  | some p => simp only; split <;> rfl

theorem create_order (h : Handler σ δ) (c : CmdClass σ δ) (q : Int) :
    (h.create c).1.writeOrder.lookup q =
      if c.prio = some q then
        some (insertSorted ({ h with heap := h.heap ++ [c.new] } : Handler σ δ).className h.heap.length ((h.writeOrder.lookup q).getD []))
      else h.writeOrder.lookup q := by
  unfold Handler.create Handler.setCommand
  cases hp : c.prio with
  | none => simp
  | some p =>
    simp only
    cases hl : h.writeOrder.lookup p with
    | none =>
      simp only [lookup_assocSet]
      by_cases hq : q = p
      · subst hq; simp [hl, insertSorted]
      · rw [if_neg hq, if_neg (by simpa using fun e => hq e.symm)]
    | some l =>
      simp only [lookup_assocSet]
      by_cases hq : q = p
      · subst hq; simp [hl]; rfl
      · rw [if_neg hq, if_neg (by simpa using fun e => hq e.symm)]

theorem className_lt {h : Handler σ δ} {r : Nat} (hr : r < h.heap.length) : ∃ o, h.heap[r]? = some o ∧ h.className r = o.cls.name := by
  refine ⟨h.heap[r], List.getElem?_eq_getElem hr, ?_⟩
  simp [Handler.className, List.getElem?_eq_getElem hr]


theorem className_append {h : Handler σ δ} {x : List (Obj σ δ)} {r : Nat} (hr : r < h.heap.length) :
    ({ h with heap := h.heap ++ x } : Handler σ δ).className r = h.className r := by
  simp [Handler.className, List.getElem?_append_left hr]

theorem prioOf_append {h : Handler σ δ} {x : List (Obj σ δ)} {r : Nat} (hr : r < h.heap.length) :
    ({ h with heap := h.heap ++ x } : Handler σ δ).prioOf r = h.prioOf r := by
  simp [Handler.prioOf, List.getElem?_append_left hr]

theorem className_create {h : Handler σ δ} (c : CmdClass σ δ) {r : Nat} (hr : r < h.heap.length) :
    (h.create c).1.className r = h.className r := by
  simp [Handler.className, create_heap, List.getElem?_append_left hr]

theorem className_created (h : Handler σ δ) (c : CmdClass σ δ) : (h.create c).1.className h.heap.length = c.name := by
  simp [Handler.className, create_heap, CmdClass.new]

theorem prioOf_create {h : Handler σ δ} (c : CmdClass σ δ) {r : Nat} (hr : r < h.heap.length) :
    (h.create c).1.prioOf r = h.prioOf r := by
  simp [Handler.prioOf, create_heap, List.getElem?_append_left hr]

theorem prioOf_created (h : Handler σ δ) (c : CmdClass σ δ) : (h.create c).1.prioOf h.heap.length = c.prio := by
  simp [Handler.prioOf, create_heap, CmdClass.new]

theorem prioOf_lt {h : Handler σ δ} {r : Nat} {p : Int} (hp : h.prioOf r = some p) : r < h.heap.length := by
  unfold Handler.prioOf at hp
  cases hr : h.heap[r]? with
  | none => rw [hr] at hp; simp at hp
  | some o => exact (List.getElem?_eq_some_iff.1 hr).1

theorem create_className_eq (h : Handler σ δ) (c : CmdClass σ δ) :
    ({ h with heap := h.heap ++ [c.new] } : Handler σ δ).className = (h.create c).1.className := by
  funext r
  simp [Handler.className, create_heap]

theorem getD_sorted {h : Handler σ δ} (w : h.Wf) (q : Int) : ((h.writeOrder.lookup q).getD []).Pairwise fun a b => h.className a < h.className b := by
  cases hl : h.writeOrder.lookup q with
  | none => exact .nil
  | some l => exact w.sorted q l hl

theorem getD_prio {h : Handler σ δ} (w : h.Wf) (q : Int) : ∀ r ∈ (h.writeOrder.lookup q).getD [], h.prioOf r = some q := by
  cases hl : h.writeOrder.lookup q with
  | none => intro r hr; simp at hr
  | some l => exact w.prio q l hl

theorem getD_sorted_create {h : Handler σ δ} (w : h.Wf) (c : CmdClass σ δ) (q : Int) :
    ((h.writeOrder.lookup q).getD []).Pairwise fun a b => (h.create c).1.className a < (h.create c).1.className b := by
  refine List.Pairwise.imp_of_mem ?_ (getD_sorted w q)
  intro a b ha hb hab
  rwa [className_create c (prioOf_lt (getD_prio w q a ha)), className_create c (prioOf_lt (getD_prio w q b hb))]

theorem nodup_assocSet {α β : Type} [DecidableEq α] {k : α} {v : β} {l : List (α × β)} (h : (l.map Prod.fst).Nodup) : ((assocSet k v l).map Prod.fst).Nodup := by
  by_cases hk : k ∈ l.map Prod.fst
  · rw [keys_assocSet hk]; exact h
  · rw [keys_assocSet_new hk, List.map_append, List.nodup_append]
    refine ⟨h, by simp, ?_⟩
    intro a ha b hb
    simp at hb
    subst hb
    exact fun e => hk (e ▸ ha)

theorem create_keys {h : Handler σ δ} (w : h.Wf) (c : CmdClass σ δ) : ((h.create c).1.writeOrder.map Prod.fst).Nodup := by
  unfold Handler.create Handler.setCommand
  cases c.prio with
  | none => exact w.keys
  | some p =>
    simp only
    split
    · exact nodup_assocSet w.keys
    · exact nodup_assocSet w.keys

theorem create_wf {h : Handler σ δ} (w : h.Wf) (c : CmdClass σ δ) : (h.create c).1.Wf where
  names := by rw [create_commands]; exact w.names
  cmds n r hr := by
    rw [create_commands] at hr
    rw [create_heap]
    have := w.cmds n r hr
    simp; omega
  attrs a r hr := by
    rw [create_attrs, lookup_assocSet] at hr
    rw [create_heap]
    by_cases ha : a = attrName c.name
    · rw [if_pos ha] at hr; cases hr; simp
    · rw [if_neg ha] at hr
      have := w.attrs a r hr
      simp; omega
  keys := create_keys w c
  prio p l hl r hr := by
    rw [create_order] at hl
    by_cases hp : c.prio = some p
    · rw [if_pos hp, create_className_eq] at hl
      cases hl
      rcases (mem_insertSorted (getD_sorted_create w c p)).1 hr with rfl | ⟨hr, _⟩
      · rw [prioOf_created, hp]
      · have := getD_prio w p r hr
        rw [prioOf_create c (prioOf_lt this), this]
    · rw [if_neg hp] at hl
      have := w.prio p l hl r hr
      rw [prioOf_create c (prioOf_lt this), this]
  sorted p l hl := by
    rw [create_order] at hl
    by_cases hp : c.prio = some p
    · rw [if_pos hp, create_className_eq] at hl
      cases hl
      exact sorted_insertSorted (getD_sorted_create w c p)
    · rw [if_neg hp] at hl
      have := getD_sorted_create w c p
      rw [hl] at this
      exact this

/-- Which objects are written after an object was created: the new one replaces an object with
the same priority and class name. -/
theorem mem_written_create {h : Handler σ δ} (w : h.Wf) (c : CmdClass σ δ) {x : Nat} :
    x ∈ (h.create c).1.written ↔
      (x = h.heap.length ∧ c.prio ≠ none) ∨ (x ∈ h.written ∧ ¬ (h.prioOf x = c.prio ∧ h.className x = c.name)) := by
  rw [mem_written, mem_written]
  constructor
  · rintro ⟨p, l, hl, hx⟩
    rw [create_order] at hl
    by_cases hp : c.prio = some p
    · rw [if_pos hp, create_className_eq] at hl
      cases hl
      rcases (mem_insertSorted (getD_sorted_create w c p)).1 hx with rfl | ⟨hx, hn⟩
      · exact .inl ⟨rfl, by rw [hp]; simp⟩
      · have h1 := getD_prio w p x hx
        refine .inr ⟨⟨p, (h.writeOrder.lookup p).getD [], ?_, hx⟩, fun e => hn ?_⟩
        · cases hl : h.writeOrder.lookup p with
          | none => rw [hl] at hx; simp at hx
          | some l => rfl
        · rw [className_created, className_create c (prioOf_lt h1), e.2]
    · rw [if_neg hp] at hl
      refine .inr ⟨⟨p, l, hl, hx⟩, fun e => hp ?_⟩
      rw [← e.1, w.prio p l hl x hx]
  · rintro (⟨rfl, hp⟩ | ⟨⟨p, l, hl, hx⟩, hn⟩)
    · cases hp' : c.prio with
      | none => exact absurd hp' hp
      | some p =>
        refine ⟨p, _, by rw [create_order, if_pos hp'], ?_⟩
        rw [create_className_eq, mem_insertSorted (getD_sorted_create w c p)]
        exact .inl rfl
    · by_cases hp : c.prio = some p
      · refine ⟨p, _, by rw [create_order, if_pos hp], ?_⟩
        rw [create_className_eq, mem_insertSorted (getD_sorted_create w c p), hl]
        have h1 := w.prio p l hl x hx
        refine .inr ⟨hx, fun e => hn ⟨by rw [h1, hp], ?_⟩⟩
        rw [className_created, className_create c (prioOf_lt h1)] at e
        exact e
      · exact ⟨p, l, by rw [create_order, if_neg hp, hl], hx⟩

/-! ## Sorted lists are determined by their elements -/

theorem sorted_unique {α : Type} {R : α → α → Prop} (hirr : ∀ a, ¬ R a a) (htr : ∀ a b, R a b → ¬ R b a) {l m : List α}
    (hl : l.Pairwise R) (hm : m.Pairwise R) (h : ∀ x, x ∈ l ↔ x ∈ m) : l = m := by
  have hln : l.Nodup := nodup_of_pairwise hirr hl
  have hmn : m.Nodup := nodup_of_pairwise hirr hm
  exact List.Perm.eq_of_pairwise (le := R) (fun a b _ _ h1 h2 => absurd h2 (htr a b h1)) hl hm ((List.perm_ext_iff_of_nodup hln hmn).2 h)


theorem pairwise_total {α : Type} {R : α → α → Prop} {l : List α} (h : l.Pairwise R) {x y : α} (hx : x ∈ l) (hy : y ∈ l) (hne : x ≠ y) :
    R x y ∨ R y x := by
  induction l with
  | nil => simp at hx
  | cons z t ih =>
    rw [List.pairwise_cons] at h
    rcases List.mem_cons.1 hx with h1 | h1 <;> rcases List.mem_cons.1 hy with h2 | h2
    · exact absurd (h1.trans h2.symm) hne
    · exact .inl (h1 ▸ h.1 y h2)
    · exact .inr (h2 ▸ h.1 x h1)
    · exact ih h.2 h1 h2

/-! ## Dicts -/

theorem mem_iff_lookup {α β : Type} [BEq α] [LawfulBEq α] [DecidableEq α] {k : α} {v : β} {l : List (α × β)} (h : (l.map Prod.fst).Nodup) : (k, v) ∈ l ↔ l.lookup k = some v := by
  induction l with
  | nil => simp
  | cons x t ih =>
    obtain ⟨a, b⟩ := x
    rw [List.map_cons, List.nodup_cons] at h
    rw [lookup_cons_ite, List.mem_cons, ih h.2]
    by_cases hk : k = a
    · subst hk
      rw [if_pos rfl]
      constructor
      · rintro (e | e)
        · cases e; rfl
        · exact absurd (key_of_lookup e) h.1
      · intro e; cases e; exact .inl rfl
    · rw [if_neg hk]
      constructor
      · rintro (e | e)
        · cases e; exact absurd rfl hk
        · exact e
      · exact .inr

theorem lookup_none_iff {α β : Type} [BEq α] [LawfulBEq α] [DecidableEq α] {k : α} {l : List (α × β)} : l.lookup k = none ↔ k ∉ l.map Prod.fst := by
  constructor
  · intro h hk
    obtain ⟨v, hv⟩ := lookup_isSome_of_key hk
    rw [h] at hv; cases hv
  · intro h
    cases hl : l.lookup k with
    | none => rfl
    | some v => exact absurd (key_of_lookup hl) h

theorem lookup_snoc {α β : Type} [BEq α] [LawfulBEq α] [DecidableEq α] {k n : α} {c : β} {l : List (α × β)} (h : n ∉ l.map Prod.fst) :
    (l ++ [(n, c)]).lookup k = if k = n then some c else l.lookup k := by
  rw [← keys_assocSet_new h, lookup_assocSet]

theorem dictUpdate_keys {β : Type} {m u : List (Str × β)} (h : (m.map Prod.fst).Nodup) : ((dictUpdate m u).map Prod.fst).Nodup := by
  induction u generalizing m with
  | nil => exact h
  | cons x t ih => exact ih (nodup_assocSet h)

theorem dictUpdate_lookup {β : Type} {m u : List (Str × β)} (hu : (u.map Prod.fst).Nodup) (n : Str) :
    (dictUpdate m u).lookup n = (u.lookup n).or (m.lookup n) := by
  induction u generalizing m with
  | nil => simp [dictUpdate]
  | cons x t ih =>
    obtain ⟨a, b⟩ := x
    rw [List.map_cons, List.nodup_cons] at hu
    rw [dictUpdate, ih hu.2, lookup_assocSet, lookup_cons_ite]
    by_cases h : n = a
    · subst h
      have : n ∉ t.map Prod.fst := hu.1
      rw [if_pos rfl, if_pos rfl, lookup_none_iff.2 this]; rfl
    · rw [if_neg h, if_neg h]

/-! ## Registration -/

theorem findClass_some {h : Handler σ δ} {name : Str} {l : List (Str × Option Nat)} {r : Nat} (hf : h.findClass name l = some r) :
    (∃ n, (n, some r) ∈ l) ∧ h.className r = name := by
  induction l with
  | nil => simp [Handler.findClass] at hf
  | cons x t ih =>
    obtain ⟨n, v⟩ := x
    cases v with
    | none =>
      rw [Handler.findClass] at hf
      obtain ⟨⟨m, hm⟩, hc⟩ := ih hf
      exact ⟨⟨m, by simp [hm]⟩, hc⟩
    | some r' =>
      rw [Handler.findClass] at hf
      split at hf
      · rename_i hc; cases hf; exact ⟨⟨n, by simp⟩, hc⟩
      · obtain ⟨⟨m, hm⟩, hc⟩ := ih hf
        exact ⟨⟨m, by simp [hm]⟩, hc⟩

theorem findClass_none {h : Handler σ δ} {name : Str} {l : List (Str × Option Nat)} (hf : h.findClass name l = none) :
    ∀ n r, (n, some r) ∈ l → h.className r ≠ name := by
  induction l with
  | nil => intro n r hm; simp at hm
  | cons x t ih =>
    obtain ⟨m, v⟩ := x
    intro n r hm
    cases v with
    | none =>
      rw [Handler.findClass] at hf
      simp at hm
      exact ih hf n r hm
    | some r' =>
      rw [Handler.findClass] at hf
      split at hf
      · cases hf
      · rename_i hc
        simp at hm
        rcases hm with ⟨rfl, rfl⟩ | hm
        · exact hc
        · exact ih hf n r hm

/-- What holds after registering the entries of `m`, one after the other, in a new handler. -/
structure Registered (h : Handler σ δ) (m : List (Str × CmdClass σ δ)) : Prop where
  wf : h.Wf
  cmdKeys : (h.commands.map Prod.fst).Nodup
  names : ∀ n, h.commands.lookup n = none ↔ m.lookup n = none
  served : ∀ n c, m.lookup n = some c → ∃ r o, h.commands.lookup n = some (some r) ∧ h.heap[r]? = some o ∧ o.cls.name = c.name
  objs : ∀ r o, h.heap[r]? = some o → o = o.cls.new ∧ ∃ n, m.lookup n = some o.cls ∧ h.commands.lookup n = some (some r)
  distinct : ∀ r r', r < h.heap.length → r' < h.heap.length → h.className r = h.className r' → r = r'
  written : ∀ r, r ∈ h.written ↔ r < h.heap.length ∧ h.prioOf r ≠ none

theorem registered_nil : Registered ({} : Handler σ δ) [] where
  wf := ⟨.nil, fun _ _ h => by simp at h, fun _ _ h => by simp at h, .nil, fun _ _ h => by simp at h, fun _ _ h => by simp at h⟩
  cmdKeys := .nil
  names n := by simp
  served n c h := by simp at h
  objs r o h := by simp at h
  distinct r r' h := by simp at h
  written r := by simp [Handler.written, sortBy]

theorem wf_setName {h : Handler σ δ} (w : h.Wf) (n : Str) {r : Nat} (hr : r < h.heap.length) :
    ({ h with commands := assocSet n (some r) h.commands } : Handler σ δ).Wf where
  names := nodup_assocSet w.names
  cmds n' r' hr' := by
    rw [lookup_assocSet] at hr'
    split at hr'
    · cases hr'; exact hr
    · exact w.cmds n' r' hr'
  attrs := w.attrs
  keys := w.keys
  prio := w.prio
  sorted := w.sorted

theorem register_step {h : Handler σ δ} {m : List (Str × CmdClass σ δ)} (b : Registered h m) {n : Str} {c : CmdClass σ δ} (hn : n ∉ m.map Prod.fst) :
    Registered (h.register n c) (m ++ [(n, c)]) := by
  unfold Handler.register
  cases hf : h.findClass c.name h.commands with
  | some r =>
    obtain ⟨⟨n0, hm⟩, hc⟩ := findClass_some hf
    rw [mem_iff_lookup b.cmdKeys] at hm
    have hr := b.wf.cmds _ _ hm
    obtain ⟨o, ho, hco⟩ := className_lt hr
    have hlk : h.commands.lookup n = none := (b.names n).2 (lookup_none_iff.2 hn)
    refine ⟨wf_setName b.wf n hr, nodup_assocSet b.cmdKeys, ?_, ?_, ?_, b.distinct, b.written⟩
    · intro k
      simp only [lookup_assocSet, lookup_snoc hn]
      by_cases hk : k = n
      · simp [hk]
      · simp only [if_neg hk, b.names]
    · intro k c' hk
      rw [lookup_snoc hn] at hk
      simp only [lookup_assocSet]
      by_cases hkn : k = n
      · rw [if_pos hkn] at hk
        cases hk
        exact ⟨r, o, by rw [if_pos hkn], ho, by rw [← hco, hc]⟩
      · rw [if_neg hkn] at hk
        rw [if_neg hkn]
        exact b.served k c' hk
    · intro r' o' ho'
      obtain ⟨h1, k, h2, h3⟩ := b.objs r' o' ho'
      have hk : k ≠ n := fun e => by rw [e, hlk] at h3; cases h3
      refine ⟨h1, k, ?_, ?_⟩
      · rw [lookup_snoc hn, if_neg hk, h2]
      · simp only [lookup_assocSet]
        rw [if_neg hk, h3]
  | none =>
    have hf' := findClass_none hf
    have w' := create_wf b.wf c
    have hlen : (h.create c).1.heap.length = h.heap.length + 1 := by rw [create_heap]; simp
    have hlk : h.commands.lookup n = none := (b.names n).2 (lookup_none_iff.2 hn)
    have hcreate : h.create c = ((h.create c).1, h.heap.length) := rfl
    rw [hcreate]
    have hold : ∀ r, r < h.heap.length → h.className r ≠ c.name := by
      intro r hr
      obtain ⟨o, ho, _⟩ := className_lt hr
      obtain ⟨_, k, _, hk⟩ := b.objs r o ho
      exact hf' k r ((mem_iff_lookup b.cmdKeys).2 hk)
    refine ⟨wf_setName w' n (by rw [hlen]; omega), ?_, ?_, ?_, ?_, ?_, ?_⟩
    · simp only [create_commands]
      exact nodup_assocSet b.cmdKeys
    · intro k
      simp only [create_commands, lookup_assocSet, lookup_snoc hn]
      by_cases hk : k = n
      · simp [hk]
      · simp only [if_neg hk, b.names]
    · intro k c' hk
      rw [lookup_snoc hn] at hk
      simp only [create_commands, lookup_assocSet, create_heap]
      by_cases hkn : k = n
      · rw [if_pos hkn] at hk
        cases hk
        exact ⟨h.heap.length, c.new, by rw [if_pos hkn], by simp, rfl⟩
      · rw [if_neg hkn] at hk
        rw [if_neg hkn]
        obtain ⟨r, o, h1, h2, h3⟩ := b.served k c' hk
        exact ⟨r, o, h1, by rw [List.getElem?_append_left (b.wf.cmds _ _ h1), h2], h3⟩
    · intro r o ho
      simp only [create_heap] at ho
      simp only [create_commands, lookup_assocSet, lookup_snoc hn]
      by_cases hr : r < h.heap.length
      · rw [List.getElem?_append_left hr] at ho
        obtain ⟨h1, k, h2, h3⟩ := b.objs r o ho
        have hk : k ≠ n := fun e => by rw [e, hlk] at h3; cases h3
        exact ⟨h1, k, by rw [if_neg hk, h2], by rw [if_neg hk, h3]⟩
      · have hr' : r = h.heap.length := by
          have := (List.getElem?_eq_some_iff.1 ho).1
          simp at this; omega
        subst hr'
        simp at ho
        subst ho
        exact ⟨rfl, n, by rw [if_pos rfl]; rfl, by rw [if_pos rfl]⟩
    · intro r r' hr hr' he
      have hr1 : r < (h.create c).1.heap.length := hr
      have hr2 : r' < (h.create c).1.heap.length := hr'
      rw [hlen] at hr1 hr2
      have he : (h.create c).1.className r = (h.create c).1.className r' := he
      rcases Nat.lt_or_eq_of_le (Nat.le_of_lt_succ hr1) with h1 | h1 <;> rcases Nat.lt_or_eq_of_le (Nat.le_of_lt_succ hr2) with h2 | h2
      · rw [className_create c h1, className_create c h2] at he
        exact b.distinct r r' h1 h2 he
      · subst h2
        rw [className_create c h1, className_created] at he
        exact absurd he (hold r h1)
      · subst h1
        rw [className_create c h2, className_created] at he
        exact absurd he.symm (hold r' h2)
      · omega
    · intro r
      show r ∈ (h.create c).1.written ↔ r < (h.create c).1.heap.length ∧ (h.create c).1.prioOf r ≠ none
      rw [mem_written_create b.wf, hlen, b.written]
      constructor
      · rintro (⟨rfl, hp⟩ | ⟨⟨hr, hp⟩, _⟩)
        · exact ⟨by omega, by rw [prioOf_created]; exact hp⟩
        · exact ⟨by omega, by rw [prioOf_create c hr]; exact hp⟩
      · rintro ⟨hr, hp⟩
        rcases Nat.lt_or_eq_of_le (Nat.le_of_lt_succ hr) with h1 | h1
        · rw [prioOf_create c h1] at hp
          exact .inr ⟨⟨h1, hp⟩, fun e => hold r h1 e.2⟩
        · subst h1
          rw [prioOf_created] at hp
          exact .inl ⟨rfl, hp⟩

theorem registerAll_step {h : Handler σ δ} {m t : List (Str × CmdClass σ δ)} (b : Registered h m) (hk : ((m ++ t).map Prod.fst).Nodup) :
    Registered (h.registerAll t) (m ++ t) := by
  induction t generalizing h m with
  | nil => simpa [Handler.registerAll] using b
  | cons x t ih =>
    obtain ⟨n, c⟩ := x
    have hn : n ∉ m.map Prod.fst := by
      rw [List.map_append, List.nodup_append] at hk
      exact fun hm => hk.2.2 n hm n (by simp) rfl
    have := ih (register_step (c := c) b hn) (by simpa using hk)
    simpa [Handler.registerAll] using this

theorem registerAll_registered {m : List (Str × CmdClass σ δ)} (hk : (m.map Prod.fst).Nodup) : Registered (({} : Handler σ δ).registerAll m) m := by
  have := registerAll_step (t := m) (registered_nil (σ := σ) (δ := δ)) (by simpa using hk)
  simpa using this

/-! ## Dispatching keeps the registry -/

/-- The same names, attributes and classes: only the attributes of the objects may differ. -/
structure SameShape (h h' : Handler σ δ) : Prop where
  commands : h'.commands = h.commands
  writeOrder : h'.writeOrder = h.writeOrder
  attrs : h'.attrs = h.attrs
  classes : h'.heap.map (·.cls) = h.heap.map (·.cls)

theorem SameShape.refl (h : Handler σ δ) : SameShape h h := ⟨rfl, rfl, rfl, rfl⟩

theorem SameShape.trans {a b c : Handler σ δ} (h1 : SameShape a b) (h2 : SameShape b c) : SameShape a c :=
  ⟨h2.1.trans h1.1, h2.2.trans h1.2, h2.3.trans h1.3, h2.4.trans h1.4⟩

theorem SameShape.cls {h h' : Handler σ δ} (s : SameShape h h') (r : Nat) : h'.heap[r]?.map (·.cls) = h.heap[r]?.map (·.cls) := by
  rw [← List.getElem?_map, ← List.getElem?_map, s.classes]

theorem SameShape.className {h h' : Handler σ δ} (s : SameShape h h') (r : Nat) : h'.className r = h.className r := by
  have := s.cls r
  unfold Handler.className
  cases h1 : h.heap[r]? <;> cases h2 : h'.heap[r]? <;> rw [h1, h2] at this <;> simp at this
  all_goals simp [this]

theorem SameShape.prioOf {h h' : Handler σ δ} (s : SameShape h h') (r : Nat) : h'.prioOf r = h.prioOf r := by
  have := s.cls r
  unfold Handler.prioOf
  cases h1 : h.heap[r]? <;> cases h2 : h'.heap[r]? <;> rw [h1, h2] at this <;> simp at this
  all_goals simp [this]

theorem SameShape.length {h h' : Handler σ δ} (s : SameShape h h') : h'.heap.length = h.heap.length := by
  have := congrArg List.length s.classes
  simpa using this

theorem SameShape.written {h h' : Handler σ δ} (s : SameShape h h') : h'.written = h.written := by
  unfold Handler.written; rw [s.writeOrder]

theorem SameShape.wf {h h' : Handler σ δ} (s : SameShape h h') (w : h.Wf) : h'.Wf where
  names := by rw [s.commands]; exact w.names
  cmds n r hr := by rw [s.length]; exact w.cmds n r (s.commands ▸ hr)
  attrs a r hr := by rw [s.length]; exact w.attrs a r (s.attrs ▸ hr)
  keys := s.writeOrder ▸ w.keys
  prio p l hl r hr := by rw [s.prioOf]; exact w.prio p l (s.writeOrder ▸ hl) r hr
  sorted p l hl := by
    have := w.sorted p l (s.writeOrder ▸ hl)
    simp only [s.className]; exact this

theorem setInst_shape {h : Handler σ δ} {r : Nat} {o : Obj σ δ} (ho : h.heap[r]? = some o) (i : Inst σ) : SameShape h (h.setInst r o i) := by
  refine ⟨rfl, rfl, rfl, ?_⟩
  obtain ⟨hr, rfl⟩ := List.getElem?_eq_some_iff.1 ho
  unfold Handler.setInst
  rw [List.map_set]
  refine List.ext_getElem (by simp) ?_
  intro k h1 h2
  rw [List.getElem_set]
  split
  · rename_i e; subst e; simp
  · rfl

theorem setInst_setInst {h : Handler σ δ} {r : Nat} {o : Obj σ δ} {i j : Inst σ} : (h.setInst r o i).setInst r o j = h.setInst r o j := by
  simp [Handler.setInst]

theorem dispatch_shape (h : Handler σ δ) (lineno : Nat) (args : List Str) (line : Str) : SameShape h (h.dispatch lineno args line).1 := by
  cases args with
  | nil => exact .refl _
  | cons cmd args =>
    rw [Handler.dispatch]
    cases hl : h.commands.lookup cmd with
    | none => exact .refl _
    | some v =>
      cases v with
      | none => exact .refl _
      | some r =>
        simp only
        cases ho : h.heap[r]? with
        | none => exact .refl _
        | some o =>
          simp only
          split
          · rw [setInst_setInst]; exact setInst_shape ho _
          · rw [setInst_setInst]; exact setInst_shape ho _
          · rw [setInst_setInst]; exact setInst_shape ho _

end Ks
