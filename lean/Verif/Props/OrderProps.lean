import Verif.Commands.Local
import Verif.Commands.Lines
/-!
# C57: the order of unrelated command lines does not matter
-/
namespace Ks

open Cmd

/-! ## Specification -/

/-- Names of the same command. -/
def aliases : List (List Str) :=
  [[c!"auth", c!"authconfig"], [c!"cmdline", c!"graphical", c!"text"], [c!"halt", c!"poweroff", c!"reboot", c!"shutdown"],
    [c!"install", c!"upgrade"], [c!"part", c!"partition"]]

/-- The storage commands. -/
def storageNames : List Str := [c!"part", c!"partition", c!"raid", c!"volgroup", c!"logvol", c!"reqpart", c!"autopart", c!"mount"]

/-- Two different commands, that are not two storage commands one of which is `autopart` or `mount`. -/
def Unrelated (m n : Str) : Prop :=
  m ≠ n ∧ (∀ g ∈ aliases, ¬ (m ∈ g ∧ n ∈ g)) ∧
    ¬ (m ∈ storageNames ∧ n ∈ storageNames ∧ (m ∈ [c!"autopart", c!"mount"] ∨ n ∈ [c!"autopart", c!"mount"]))

instance (m n : Str) : Decidable (Unrelated m n) := by unfold Unrelated; infer_instance

theorem Unrelated.symm {m n : Str} (h : Unrelated m n) : Unrelated n m :=
  ⟨fun e => h.1 e.symm, fun g hg hh => h.2.1 g hg ⟨hh.2, hh.1⟩, fun hh => h.2.2 ⟨hh.2.1, hh.1, hh.2.2.symm⟩⟩

/-! ## The command maps -/

/-- One name for each command. -/
def rep (n : Str) : Str :=
  match aliases.find? (fun g => g.contains n) with
  | some (r :: _) => r
  | _ => n

theorem rep_cases (n : Str) : rep n = n ∧ (∀ g ∈ aliases, n ∉ g) ∨ ∃ g ∈ aliases, n ∈ g ∧ g.head? = some (rep n) := by
  unfold rep
  cases h : aliases.find? (fun g => g.contains n) with
  | none =>
    refine .inl ⟨rfl, fun g hg hn => ?_⟩
    have := List.find?_eq_none.1 h g hg
    simp [hn] at this
  | some g =>
    have h1 := List.mem_of_find?_eq_some h
    have h2 := List.find?_some h
    refine .inr ⟨g, h1, by simpa using h2, ?_⟩
    cases g with
    | nil => simp at h2
    | cons r t => rfl

theorem aliases_heads : ∀ g ∈ aliases, ∀ g' ∈ aliases, g.head? = g'.head? → g = g' := by decide +kernel
theorem aliases_mem : ∀ g ∈ aliases, ∀ r, g.head? = some r → r ∈ g := by
  intro g _ r h
  cases g with
  | nil => cases h
  | cons a t => cases h; simp

theorem rep_eq {m n : Str} (h : rep m = rep n) : m = n ∨ ∃ g ∈ aliases, m ∈ g ∧ n ∈ g := by
  rcases rep_cases m with ⟨h1, h2⟩ | ⟨g, hg, hm, hr⟩ <;> rcases rep_cases n with ⟨h1', h2'⟩ | ⟨g', hg', hn, hr'⟩
  · exact .inl (by rw [← h1, h, h1'])
  · refine absurd ?_ (h2 g' hg')
    rw [← h1, h]
    exact aliases_mem g' hg' _ hr'
  · refine absurd ?_ (h2' g hg)
    rw [← h1', ← h]
    exact aliases_mem g hg _ hr
  · have := aliases_heads g hg g' hg' (by rw [hr, hr', h])
    subst this
    exact .inr ⟨g, hg, hm, hn⟩

/-- Equal first numbers have equal second numbers. -/
def agree : List (Nat × Nat) → Bool
  | [] => true
  | x :: t => t.all (fun y => !(Nat.beq x.1 y.1) || Nat.beq x.2 y.2) && agree t

theorem agree_spec {l : List (Nat × Nat)} (h : agree l = true) {x y : Nat × Nat} (hx : x ∈ l) (hy : y ∈ l) (he : x.1 = y.1) : x.2 = y.2 := by
  induction l with
  | nil => simp at hx
  | cons a t ih =>
    rw [agree, Bool.and_eq_true, List.all_eq_true] at h
    rcases List.mem_cons.1 hx with e1 | hx' <;> rcases List.mem_cons.1 hy with e2 | hy'
    · rw [e1, e2]
    · have := h.1 y hy'
      rw [← e1] at this
      simpa [he] using this
    · have := h.1 x hx'
      rw [← e2] at this
      have : y.2 = x.2 := by simpa [he] using this
      exact this.symm
    · exact ih h.2 hx' hy'

/-- The number determines the string. -/
theorem strCode_inj : ∀ {s t : Str}, strCode s = strCode t → s = t := by
  have pos : ∀ (s : Str) (k : Nat), 0 < k → 0 < s.foldl (fun n c => n * 0x110000 + c.toNat) k := by
    intro s
    induction s with
    | nil => exact fun k hk => hk
    | cons c s ih => intro k hk; exact ih _ (Nat.lt_of_lt_of_le (Nat.mul_pos hk (by decide)) (Nat.le_add_right _ _))
  have lt : ∀ c : Char, c.toNat < 0x110000 := by
    intro c
    have := c.valid
    rcases this with h | ⟨_, h⟩
    · exact Nat.lt_trans h (by decide)
    · exact h
  have snoc : ∀ (s : Str) (c : Char), strCode (s ++ [c]) = strCode s * 0x110000 + c.toNat := by
    intro s c; simp [strCode]
  intro s
  induction s using snoc_ind with
  | nil =>
    intro t
    induction t using snoc_ind with
    | nil => exact fun _ => rfl
    | snoc t c _ =>
      intro h
      rw [snoc] at h
      have := pos t 1 (by omega)
      have h1 : strCode [] = 1 := rfl
      have h2 : strCode t = t.foldl (fun n c => n * 0x110000 + c.toNat) 1 := rfl
      omega
  | snoc s c ih =>
    intro t
    induction t using snoc_ind with
    | nil =>
      intro h
      rw [snoc] at h
      have := pos s 1 (by omega)
      have h1 : strCode [] = 1 := rfl
      have h2 : strCode s = s.foldl (fun n c => n * 0x110000 + c.toNat) 1 := rfl
      omega
    | snoc t d _ =>
      intro h
      rw [snoc, snoc] at h
      have hc := lt c
      have hd := lt d
      have h1 : strCode s = strCode t := by omega
      have h2 : c.toNat = d.toNat := by omega
      rw [ih h1, Char.toNat_inj.1 h2]

theorem commandMaps_agree : commandMaps.all (fun m => agree (m.2.map fun x => (strCode x.2.name, strCode (rep x.1)))) = true := by decide +kernel

/-- The attributes of storage commands belong to their names. -/
def storageAttrs : List (Str × Str) :=
  [(c!"part", c!"partition"), (c!"partition", c!"partition"), (c!"raid", c!"raid"), (c!"volgroup", c!"volgroup"), (c!"logvol", c!"logvol"),
    (c!"reqpart", c!"reqpart"), (c!"autopart", c!"autopart"), (c!"mount", c!"mount")]

theorem commandMaps_storage : commandMaps.all (fun m => m.2.all fun x =>
    !((storageAttrs.map (·.2)).contains (attrName x.2.name)) || storageAttrs.contains (x.1, attrName x.2.name)) = true := by decide +kernel

theorem supported_mem {v : Nat} (hv : Supported v) : (v, commandMap v) ∈ commandMaps := by
  obtain ⟨m, hm⟩ := lookup_isSome_of_key (l := commandMaps) hv
  have : (v, m) ∈ commandMaps := by
    obtain ⟨l1, l2, hl, _⟩ := List.lookup_eq_some_iff.1 hm
    simp [hl]
  rwa [show commandMap v = m by simp [commandMap, hm]]

/-- Names of one class are names of one command. -/
theorem same_class {v : Nat} (hv : Supported v) {m n : Str} {c d : Command} (h1 : (m, c) ∈ commandMap v) (h2 : (n, d) ∈ commandMap v)
    (h : c.name = d.name) : m = n ∨ ∃ g ∈ aliases, m ∈ g ∧ n ∈ g := by
  have ha := List.all_eq_true.1 commandMaps_agree _ (supported_mem hv)
  have := agree_spec ha (List.mem_map_of_mem h1) (List.mem_map_of_mem h2) (by simp [h])
  exact rep_eq (strCode_inj this)

theorem storage_name {v : Nat} (hv : Supported v) {n : Str} {c : Command} (h : (n, c) ∈ commandMap v) (ha : attrName c.name ∈ storageAttrs.map (·.2)) :
    (n, attrName c.name) ∈ storageAttrs := by
  have h1 := List.all_eq_true.1 commandMaps_storage _ (supported_mem hv)
  have := List.all_eq_true.1 h1 _ h
  rw [List.contains_iff_mem.2 ha] at this
  simpa using this

/-- A command looks only at commands that are not unrelated to it. -/
theorem looksAt_related : ∀ p ∈ storageAttrs, ∀ q ∈ storageAttrs, q.2 ∈ looksAt p.2 → ¬ Unrelated p.1 q.1 := by decide +kernel

theorem looksAt_storage {a b : Str} (h : b ∈ looksAt a) : a ∈ storageAttrs.map (·.2) ∧ b ∈ storageAttrs.map (·.2) := by
  unfold looksAt at h
  split at h
  · rename_i ha
    constructor
    · revert ha a; decide
    · revert h b; decide
  · split at h
    · rename_i ha
      subst ha
      exact ⟨by decide, by revert h b; decide⟩
    · split at h
      · rename_i ha
        subst ha
        exact ⟨by decide, by revert h b; decide⟩
      · simp at h

/-- Unrelated commands do not look at each other. -/
theorem unrelated_looks {v : Nat} (hv : Supported v) {m n : Str} {c d : Command} (h1 : (m, c) ∈ commandMap v) (h2 : (n, d) ∈ commandMap v)
    (hu : Unrelated m n) : attrName d.name ∉ looksAt (attrName c.name) := by
  intro h
  obtain ⟨hc, hd⟩ := looksAt_storage h
  exact looksAt_related _ (storage_name hv h1 hc) _ (storage_name hv h2 hd) h hu

theorem session_local {v : Nat} (hv : Supported v) {n : Str} {c : Command} (h : (n, c) ∈ commandMap v) : Command.Local c (looksAt (attrName c.name)) := by
  obtain ⟨a, rfl, h⟩ := commandMaps_local _ (supported_mem hv) _ h
  exact h

/-! ## Sessions -/

theorem session_attr_class {v : Nat} (hv : Supported v) {h : Handler CState Ns} (s : Session v h) :
    ∀ a x, h.attrs.lookup a = some x → attrName (h.className x) = a := by
  induction s with
  | new => exact registerAll_attr_class _ {} registered_nil.wf fun a x h => by simp at h
  | @dispatch h lineno args line _ ih =>
    have hsh := dispatch_shape h lineno args line
    intro a x hx
    rw [hsh.attrs] at hx
    rw [hsh.className]
    exact ih a x hx
  | @reset h n s ih =>
    have inv := session_inv hv s
    cases hl : h.commands.lookup n with
    | none => rw [C47_unknown h n hl]; exact ih
    | some x =>
      cases x with
      | none => rw [show h.reset n = (h, some .attribute) by simp [Handler.reset, hl]]; exact ih
      | some r =>
        obtain ⟨o, ho, _⟩ := inv.served n r hl
        rw [reset_eq hl ho]
        intro a x hx
        have hx' : (h.create o.cls).1.attrs.lookup a = some x := hx
        show attrName ((h.create o.cls).1.className x) = a
        rw [create_attrs, lookup_assocSet] at hx'
        by_cases ha : a = attrName o.cls.name
        · rw [if_pos ha] at hx'; cases hx'
          rw [className_created, ha]
        · rw [if_neg ha] at hx'
          rw [className_create _ ((reachable_wf inv.reach).attrs _ _ hx')]
          exact ih a x hx'
  | mask lst _ ih => exact ih

/-- A line for another, unrelated command does not change what a line does. -/
theorem dispatch_after {v : Nat} (hv : Supported v) {h : Handler CState Ns} (s : Session v h) {m n : Str} (hu : Unrelated m n)
    {r : Nat} {o : Obj CState Ns} (hs : h.Serves m r) (ho : h.heap[r]? = some o) (i : Inst CState) {r' : Nat} {o' : Obj CState Ns} (hs' : h.Serves n r')
    (ho' : h.heap[r']? = some o') : r ≠ r' ∧
    ∀ args j, o'.cls.parse ((h.setInst r o i).setInst r' o' j).seenAttr args j = o'.cls.parse (h.setInst r' o' j).seenAttr args j := by
  have inv := session_inv hv s
  obtain ⟨p, hp, hm⟩ := inv.served m r hs
  obtain ⟨q, hq, hn⟩ := inv.served n r' hs'
  rw [ho] at hp; cases hp
  rw [ho'] at hq; cases hq
  have hne : r ≠ r' := by
    rintro rfl
    rw [ho] at ho'; cases ho'
    rcases same_class hv hm hn rfl with h | ⟨g, hg, hh⟩
    · exact hu.1 h
    · exact hu.2.1 g hg hh
  refine ⟨hne, fun args j => ?_⟩
  refine session_local hv hn _ _ (fun a ha => ?_) args j
  have ho1 : (h.setInst r o i).heap[r']? = some o' := by
    simp only [Handler.setInst]; rw [List.getElem?_set_ne hne]; exact ho'
  rw [seenAttr_setInst ho1, seenAttr_setInst ho']
  have : (h.setInst r o i).attrs = h.attrs := rfl
  rw [this]
  split
  · rfl
  · rw [seenAttr_setInst ho]
    split
    · rename_i hr
      have := session_attr_class hv s a r hr
      have hcr : h.className r = o.cls.name := by simp [Handler.className, ho]
      rw [hcr] at this
      rw [← this] at ha
      exact absurd ha (unrelated_looks hv hn hm hu.symm)
    · rfl

theorem setInst_comm {h : Handler CState Ns} {r r' : Nat} (hne : r ≠ r') (o o' : Obj CState Ns) (i j : Inst CState) :
    (h.setInst r o i).setInst r' o' j = (h.setInst r' o' j).setInst r o i := by
  unfold Handler.setInst
  simp only [List.set_comm _ _ hne]

/-- C57: two lines for unrelated commands can be exchanged, in every state of every handler: the
handler is the same in the end, and each line raises the same exception as before, or none. -/
theorem C57_commute {v : Nat} (hv : Supported v) {h : Handler CState Ns} (s : Session v h) {m n : Str} (hu : Unrelated m n)
    (l l' : Nat) (margs nargs : List Str) (mline nline : Str) :
    ((h.dispatch l (m :: margs) mline).1.dispatch l' (n :: nargs) nline).1 = ((h.dispatch l' (n :: nargs) nline).1.dispatch l (m :: margs) mline).1 ∧
    (h.dispatch l (m :: margs) mline).2 = ((h.dispatch l' (n :: nargs) nline).1.dispatch l (m :: margs) mline).2 ∧
    ((h.dispatch l (m :: margs) mline).1.dispatch l' (n :: nargs) nline).2 = (h.dispatch l' (n :: nargs) nline).2 := by
  have inv := session_inv hv s
  have one : ∀ (m n : Str) (l l' : Nat) (margs nargs : List Str) (mline nline : Str), (∀ r, ¬ h.Serves m r) →
      (h.dispatch l (m :: margs) mline).1 = h ∧
      ((h.dispatch l' (n :: nargs) nline).1.dispatch l (m :: margs) mline).1 = (h.dispatch l' (n :: nargs) nline).1 ∧
      (h.dispatch l (m :: margs) mline).2 = ((h.dispatch l' (n :: nargs) nline).1.dispatch l (m :: margs) mline).2 := by
    intro m n l l' margs nargs mline nline hno
    have hsh := dispatch_shape h l' (n :: nargs) nline
    cases hl : h.commands.lookup m with
    | none => rw [C48_unknown h l m margs mline hl, C48_unknown _ l m margs mline (by rw [hsh.commands]; exact hl)]; exact ⟨rfl, rfl, rfl⟩
    | some x =>
      cases x with
      | none => rw [C48_masked h l m margs mline hl, C48_masked _ l m margs mline (by rw [hsh.commands]; exact hl)]; exact ⟨rfl, rfl, rfl⟩
      | some r => exact absurd hl (hno r)
  by_cases h1 : ∃ r, h.Serves m r
  · by_cases h2 : ∃ r, h.Serves n r
    · obtain ⟨r, hs⟩ := h1
      obtain ⟨r', hs'⟩ := h2
      obtain ⟨o, ho, _⟩ := inv.served m r hs
      obtain ⟨o', ho', _⟩ := inv.served n r' hs'
      have hd := dispatch_eq hs ho l margs mline
      have hd' := dispatch_eq hs' ho' l' nargs nline
      have hne := (dispatch_after hv s hu hs ho o.inst hs' ho').1
      have ho1 : ∀ i, (h.setInst r o i).heap[r']? = some o' := by
        intro i; simp only [Handler.setInst]; rw [List.getElem?_set_ne hne]; exact ho'
      have ho2 : ∀ i, (h.setInst r' o' i).heap[r]? = some o := by
        intro i; simp only [Handler.setInst]; rw [List.getElem?_set_ne (Ne.symm hne)]; exact ho
      have e1 := fun i => dispatch_eq (h := h.setInst r o i) (n := n) (r := r') (o := o') hs' (ho1 i) l' nargs nline
      have e2 := fun i => dispatch_eq (h := h.setInst r' o' i) (n := m) (r := r) (o := o) hs (ho2 i) l margs mline
      simp only at hd hd' e1 e2
      rw [hd, hd']
      simp only [e1, e2]
      have k1 := fun i => (dispatch_after hv s hu hs ho i hs' ho').2 nargs (o'.inst.noted n nline l')
      have k2 := fun i => (dispatch_after hv s hu.symm hs' ho' i hs ho).2 margs (o.inst.noted m mline l)
      simp only [k1, k2]
      exact ⟨setInst_comm hne _ _ _ _, trivial, trivial⟩
    · obtain ⟨a1, a2, a3⟩ := one n m l' l nargs margs nline mline (fun r hr => h2 ⟨r, hr⟩)
      rw [a1, a2]
      exact ⟨rfl, rfl, a3.symm⟩
  · obtain ⟨a1, a2, a3⟩ := one m n l l' margs nargs mline nline (fun r hr => h1 ⟨r, hr⟩)
    rw [a1, a2]
    exact ⟨rfl, a3, rfl⟩

/-- Exchanging neighbouring lines of unrelated commands, any number of times. -/
inductive Reordered : List (Nat × List Str × Str) → List (Nat × List Str × Str) → Prop
  | refl (ls) : Reordered ls ls
  | swap {ls ls' a b : List (Nat × List Str × Str)} {l l' : Nat} {m n : Str} {margs nargs : List Str} {mline nline : Str} :
      Unrelated m n → Reordered ls (a ++ (l, m :: margs, mline) :: (l', n :: nargs, nline) :: b) →
      ls' = a ++ (l', n :: nargs, nline) :: (l, m :: margs, mline) :: b → Reordered ls ls'

/-- C57: reordering lines of unrelated commands does not change what they configure. -/
theorem C57_reorder {v : Nat} (hv : Supported v) {ls ls' : List (Nat × List Str × Str)} (hr : Reordered ls ls') : readLines v ls = readLines v ls' := by
  induction hr with
  | refl => rfl
  | @swap ls' a b l l' m n margs nargs mline nline hu _ he ih =>
    rw [ih, he]
    simp only [readLines, List.foldl_append, List.foldl_cons]
    have := (C57_commute hv (readLines_session v a) hu l l' margs nargs mline nline).1
    unfold readLines at this
    rw [this]

/-- Not everything commutes: the last of two `lang` lines wins, and `autopart` and `part` get in each
other's way. -/
theorem C57_not_all : readLines Version.F34 [(1, [c!"lang", c!"a"], []), (2, [c!"lang", c!"b"], [])] ≠
    readLines Version.F34 [(2, [c!"lang", c!"b"], []), (1, [c!"lang", c!"a"], [])] := by
  intro h
  have := congrArg (fun h => (h.heap.map (fun o => o.cls.str o.inst))) h
  revert this
  decide +kernel

example : Unrelated c!"lang" c!"autopart" ∧ Unrelated c!"part" c!"raid" ∧ ¬ Unrelated c!"part" c!"autopart" ∧ ¬ Unrelated c!"text" c!"graphical" := by decide

example : readLines Version.F34 [(1, [c!"lang", c!"a"], []), (2, [c!"part", c!"/", c!"--size=1"], [])] =
    readLines Version.F34 [(2, [c!"part", c!"/", c!"--size=1"], []), (1, [c!"lang", c!"a"], [])] :=
  C57_reorder (by decide) (.swap (a := []) (b := []) (by decide) (.refl _) rfl)

end Ks
