import Verif.Commands.Session
/-!
# Handlers that have read some lines

What a handler knows after any list of command lines: which commands were seen, and that the
attributes of the handler are the objects that serve the commands.
-/
namespace Ks

open Cmd

theorem snoc_ind {α : Type} {P : List α → Prop} (nil : P []) (snoc : ∀ l a, P l → P (l ++ [a])) (l : List α) : P l := by
  rw [← List.reverse_reverse l]
  induction l.reverse with
  | nil => exact nil
  | cons a t ih => rw [List.reverse_cons]; exact snoc _ _ ih

/-- The handler of version `v` after the given command lines (line number, words, text), whether
their commands raised exceptions or not. -/
def readLines (v : Nat) (ls : List (Nat × List Str × Str)) : Handler CState Ns :=
  ls.foldl (fun h l => (h.dispatch l.1 l.2.1 l.2.2).1) (newHandler v)

theorem readLines_snoc (v : Nat) (ls : List (Nat × List Str × Str)) (l : Nat × List Str × Str) :
    readLines v (ls ++ [l]) = ((readLines v ls).dispatch l.1 l.2.1 l.2.2).1 := by
  simp [readLines, List.foldl_append]

theorem readLines_session (v : Nat) (ls : List (Nat × List Str × Str)) : Session v (readLines v ls) := by
  induction ls using snoc_ind with
  | nil => exact .new
  | snoc ls l ih => rw [readLines_snoc]; exact ih.dispatch _ _ _

/-- The attribute of a class is an object of that class. -/
theorem registerAll_attr_class {σ δ : Type} (m : List (Str × CmdClass σ δ)) (h : Handler σ δ) (w : h.Wf)
    (hc : ∀ a x, h.attrs.lookup a = some x → attrName (h.className x) = a) :
    ∀ a x, (h.registerAll m).attrs.lookup a = some x → attrName ((h.registerAll m).className x) = a := by
  induction m generalizing h with
  | nil => exact hc
  | cons p t ih =>
    obtain ⟨n, c⟩ := p
    rw [Handler.registerAll]
    unfold Handler.register
    cases hf : h.findClass c.name h.commands with
    | some r =>
      obtain ⟨⟨m', hm'⟩, hn'⟩ := findClass_some hf
      have hl := (mem_iff_lookup w.names).1 hm'
      exact ih _ (wf_setName w n (w.cmds _ _ hl)) hc
    | none =>
      have wc := create_wf w c
      refine ih _ (wf_setName wc n (r := h.heap.length) (by rw [create_heap]; simp)) ?_
      intro a x hx
      have hx' : (h.create c).1.attrs.lookup a = some x := hx
      show attrName ((h.create c).1.className x) = a
      rw [create_attrs, lookup_assocSet] at hx'
      by_cases ha : a = attrName c.name
      · rw [if_pos ha] at hx'; cases hx'
        rw [className_created, ha]
      · rw [if_neg ha] at hx'
        rw [className_create c (w.attrs _ _ hx')]
        exact hc a x hx'

/-- In a new handler the attribute of a class is the object that serves its names. -/
theorem new_own {v : Nat} {m : List (Str × Command)} (hm : MapOk v m) (r : Nat) (o : Obj CState Ns)
    (ho : (Handler.build m none none).heap[r]? = some o)
    (hu : attrName o.cls.name ≠ c!"upgrade") : (Handler.build m none none).attrs.lookup (attrName o.cls.name) = some r := by
  have inv := sessionInv_new hm
  have b : Registered (Handler.build m none none) m := registerAll_registered hm.dict
  obtain ⟨⟨n', hn'⟩, _⟩ := inv.objs r o ho
  obtain ⟨x, hx⟩ := inv.attrs _ hn'
  have hlt := b.wf.attrs _ _ hx
  have hcx := registerAll_attr_class m {} registered_nil.wf (fun a x h => by simp at h) _ _ hx
  obtain ⟨o', ho', hcn⟩ := className_lt hlt
  have hcn' : ((({} : Handler CState Ns).registerAll m).className x) = o'.cls.name := hcn
  rw [hcn'] at hcx
  obtain ⟨⟨n'', hn''⟩, _⟩ := inv.objs x o' ho'
  have hce := hm.attr_inj hn' hn'' hcx.symm hu
  have hr : r < (Handler.build m none none).heap.length := (List.getElem?_eq_some_iff.1 ho).1
  have hcr : (Handler.build m none none).className r = o.cls.name := by simp [Handler.className, ho]
  have : x = r := b.distinct x r hlt hr (by rw [hcn, hcr]; exact congrArg (·.name) hce.symm)
  rw [hx, this]

/-- See the top of the file. -/
structure LinesInv (v : Nat) (ls : List (Nat × List Str × Str)) (h : Handler CState Ns) : Prop where
  shape : SameShape (newHandler v) h
  /-- an object is marked as seen when a line named a command it serves -/
  seen : ∀ (r : Nat) (o : Obj CState Ns), h.heap[r]? = some o → (o.inst.seen = true ↔ ∃ l ∈ ls, ∃ n args, l.2.1 = n :: args ∧ h.Serves n r)

theorem CmdClass.stored_seen {c : Command} {I : Ns → Prop} {E : List Str → Nat → Exc → Prop} (hI : c.Ok I E) (p : Inst CState × Except Exc (Option Ns)) :
    (c.stored p).seen = p.1.seen := by
  obtain ⟨i, r⟩ := p
  match r with
  | .error e => rfl
  | .ok none => rfl
  | .ok (some d) =>
    show (if c.hasList i = true then c.addData d i else i).seen = _
    cases c.hasList i with
    | true => exact hI.seen d i
    | false => rfl

theorem lines_inv {v : Nat} (hv : Supported v) (ls : List (Nat × List Str × Str)) : LinesInv v ls (readLines v ls) := by
  have hm := supported_mapOk hv
  induction ls using snoc_ind with
  | nil =>
    refine ⟨.refl _, fun r o ho => ?_⟩
    obtain ⟨h1, _⟩ := (registerAll_registered hm.dict).objs r o ho
    have : o.inst.seen = false := by rw [h1]; rfl
    simp [this]
  | snoc ls l ih =>
    rw [readLines_snoc]
    have hsh := dispatch_shape (readLines v ls) l.1 l.2.1 l.2.2
    refine ⟨ih.shape.trans hsh, ?_⟩
    have hserves : ∀ n r, ((readLines v ls).dispatch l.1 l.2.1 l.2.2).1.Serves n r ↔ (readLines v ls).Serves n r := by
      intro n r; unfold Handler.Serves; rw [hsh.commands]
    have inv := session_inv hv (readLines_session v ls)
    obtain ⟨lineno, args, line⟩ := l
    simp only at hserves ⊢
    intro r o ho
    simp only [hserves]
    have old : ∀ (r' : Nat), (∀ n a, args = n :: a → ¬ (readLines v ls).Serves n r') → ((∃ l ∈ ls ++ [(lineno, args, line)], ∃ n args, l.2.1 = n :: args ∧ (readLines v ls).Serves n r') ↔
        ∃ l ∈ ls, ∃ n args, l.2.1 = n :: args ∧ (readLines v ls).Serves n r') := by
      intro r' hno
      constructor
      · rintro ⟨l, hl, n, a, h1, h2⟩
        rcases List.mem_append.1 hl with hl | hl
        · exact ⟨l, hl, n, a, h1, h2⟩
        · rw [List.mem_singleton] at hl; subst hl
          exact absurd h2 (hno n a h1)
      · rintro ⟨l, hl, n, a, h⟩
        exact ⟨l, List.mem_append_left _ hl, n, a, h⟩
    match args with
    | [] => rw [old r (fun n a h => by cases h)]; exact ih.seen r o ho
    | n :: args =>
      cases hl : (readLines v ls).commands.lookup n with
      | none =>
        rw [C48_unknown _ lineno n args line hl] at ho
        rw [old r (fun n' a h hs => by cases h; rw [Handler.Serves, hl] at hs; cases hs)]; exact ih.seen r o ho
      | some x =>
        cases x with
        | none =>
          rw [C48_masked _ lineno n args line hl] at ho
          rw [old r (fun n' a h hs => by cases h; rw [Handler.Serves, hl] at hs; cases hs)]; exact ih.seen r o ho
        | some r' =>
          obtain ⟨o', ho', hmem⟩ := inv.served n r' hl
          have hr' : r' < (readLines v ls).heap.length := (List.getElem?_eq_some_iff.1 ho').1
          rw [dispatch_eq hl ho'] at ho
          by_cases hrr : r = r'
          · subst hrr
            simp only [Handler.setInst, List.getElem?_set_self hr', Option.some.injEq] at ho
            subst ho
            obtain ⟨I, hI⟩ := hm.ok _ hmem
            have hst := hasStorage_setInst ho' (o'.inst.noted n line lineno) (inv.storage hm)
            have hk := hI.mark _ args (o'.inst.noted n line lineno) hst ((inv.objs r o' ho').2 I _ hI)
            have h1 := CmdClass.stored_seen hI (CmdClass.parse o'.cls ((readLines v ls).setInst r o' (o'.inst.noted n line lineno)).seenAttr args (o'.inst.noted n line lineno))
            exact ⟨fun _ => ⟨(lineno, n :: args, line), by simp, n, args, rfl, hl⟩, fun _ => h1.trans hk⟩
          · simp only [Handler.setInst] at ho
            rw [List.getElem?_set_ne (fun e => hrr e.symm)] at ho
            rw [old r (fun n' a h hs => by cases h; rw [Handler.Serves, hl] at hs; cases hs; exact hrr rfl)]; exact ih.seen r o ho

/-- The name of a command is served by an object of its class, which is the attribute of its class. -/
theorem lines_served {v : Nat} (hv : Supported v) (ls : List (Nat × List Str × Str)) {n : Str} {c : Command} (hc : (n, c) ∈ commandMap v) :
    ∃ (r : Nat) (o : Obj CState Ns), (readLines v ls).Serves n r ∧ (readLines v ls).heap[r]? = some o ∧ o.cls = c ∧
      (attrName c.name ≠ c!"upgrade" → (readLines v ls).attrs.lookup (attrName c.name) = some r) := by
  have hm := supported_mapOk hv
  have inv := lines_inv hv ls
  have sinv := session_inv hv (readLines_session v ls)
  have b : Registered (newHandler v) (commandMap v) := registerAll_registered hm.dict
  have hl : (commandMap v).lookup n = some c := (mem_iff_lookup hm.dict).1 hc
  obtain ⟨r, o, h1, h2, h3⟩ := b.served n c hl
  have hs : (readLines v ls).Serves n r := by unfold Handler.Serves; rw [inv.shape.commands]; exact h1
  obtain ⟨o', ho', hmem⟩ := sinv.served n r hs
  have hcc : o'.cls = c := by
    have := (mem_iff_lookup hm.dict).1 hmem
    rw [hl] at this
    exact (Option.some.inj this).symm
  refine ⟨r, o', hs, ho', hcc, fun hu => ?_⟩
  rw [inv.shape.attrs]
  have hoc : attrName o.cls.name = attrName c.name := congrArg attrName h3
  rw [← hoc] at hu ⊢
  exact new_own hm r o h2 hu

/-- `handler.<attribute>.seen` says whether a line named one of the commands of the attribute's class. -/
theorem seenAttr_lines {v : Nat} (hv : Supported v) (ls : List (Nat × List Str × Str)) {n : Str} {c : Command} (hc : (n, c) ∈ commandMap v)
    (hu : attrName c.name ≠ c!"upgrade") :
    (readLines v ls).seenAttr (attrName c.name) = some true ↔ ∃ l ∈ ls, ∃ n' args, l.2.1 = n' :: args ∧ (n', c) ∈ commandMap v := by
  have hm := supported_mapOk hv
  obtain ⟨r, o, hs, ho, hoc, ha⟩ := lines_served hv ls hc
  have ha := ha hu
  unfold Handler.seenAttr
  rw [ha]
  simp only [ho, Option.map_some, Option.some.injEq]
  rw [(lines_inv hv ls).seen r o ho]
  constructor
  · rintro ⟨l, hl, n', args, h1, h2⟩
    obtain ⟨o', ho', hmem⟩ := (session_inv hv (readLines_session v ls)).served n' r h2
    rw [ho] at ho'; cases ho'
    exact ⟨l, hl, n', args, h1, by rw [← hoc]; exact hmem⟩
  · rintro ⟨l, hl, n', args, h1, h2⟩
    obtain ⟨r', o', hs', ho', hoc', ha'⟩ := lines_served hv ls h2
    have := ha' hu
    rw [ha] at this; cases this
    exact ⟨l, hl, n', args, h1, hs'⟩

end Ks
