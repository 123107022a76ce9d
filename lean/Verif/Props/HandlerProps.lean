import Verif.HandlerLemmas
/-!
# C45 - C51: handlers and command objects

Objects are positions in the heap, so equality of positions is identity of objects.
-/
namespace Ks

variable {σ δ : Type}

/-! ## Specification -/

/-- `handler.commands[n]` is the object `r`. -/
def Handler.Serves (h : Handler σ δ) (n : Str) (r : Nat) : Prop := h.commands.lookup n = some (some r)

/-- The class wanted for a name: that of the updates, else that of the map given, else that of the
version's own map. -/
def wanted (default : List (Str × CmdClass σ δ)) (mapping updates : Option (List (Str × CmdClass σ δ))) (n : Str) : Option (CmdClass σ δ) :=
  match (updates.getD []).lookup n with
  | some c => some c
  | none =>
    match mapping.getD [] with
    | [] => default.lookup n
    | m => m.lookup n

/-- A dict: no key twice. -/
def IsDict {β : Type} (m : List (Str × β)) : Prop := (m.map Prod.fst).Nodup

/-- The maps of the constructor are dicts. -/
structure Dicts (default : List (Str × CmdClass σ δ)) (mapping updates : Option (List (Str × CmdClass σ δ))) : Prop where
  default : IsDict default
  mapping : ∀ m, mapping = some m → IsDict m
  updates : ∀ m, updates = some m → IsDict m

/-- The handler after any number of lines have been dispatched, whatever their outcome. -/
inductive Dispatched (h : Handler σ δ) : Handler σ δ → Prop
  | refl : Dispatched h h
  | step {h'} (lineno : Nat) (args : List Str) (line : Str) : Dispatched h h' → Dispatched h (h'.dispatch lineno args line).1

/-- The handlers that the methods of the class can produce. -/
inductive Handler.Reachable : Handler σ δ → Prop
  | new : Reachable {}
  | register {h} (n : Str) (c : CmdClass σ δ) : Reachable h → Reachable (h.register n c)
  | reset {h} (n : Str) : Reachable h → Reachable (h.reset n).1
  | dispatch {h} (lineno : Nat) (args : List Str) (line : Str) : Reachable h → Reachable (h.dispatch lineno args line).1
  | mask {h} (lst : List Str) : Reachable h → Reachable (h.maskAllExcept lst)

/-! ## Lemmas -/

theorem build_registered {d : List (Str × CmdClass σ δ)} {mp up : Option (List (Str × CmdClass σ δ))} (hd : Dicts d mp up) :
    ∃ m, Registered (Handler.build d mp up) m ∧ IsDict m ∧ ∀ n, m.lookup n = wanted d mp up n := by
  have base : ∃ m0, IsDict m0 ∧ Handler.build d mp up = ({} : Handler σ δ).registerAll (match up with | none => m0 | some u => dictUpdate m0 u) ∧
      ∀ n, m0.lookup n = (match mp.getD [] with | [] => d.lookup n | m => m.lookup n) := by
    match mp, hd with
    | none, hd => exact ⟨d, hd.default, rfl, fun _ => rfl⟩
    | some [], hd => exact ⟨d, hd.default, rfl, fun _ => rfl⟩
    | some (x :: t), hd => exact ⟨x :: t, hd.mapping _ rfl, rfl, fun _ => rfl⟩
  obtain ⟨m0, h0, h1, h2⟩ := base
  rw [h1]
  cases up with
  | none =>
    refine ⟨m0, registerAll_registered h0, h0, fun n => ?_⟩
    rw [h2]; simp [wanted]
  | some u =>
    refine ⟨dictUpdate m0 u, registerAll_registered (dictUpdate_keys h0), dictUpdate_keys h0, fun n => ?_⟩
    rw [dictUpdate_lookup (hd.updates u rfl), h2]
    unfold wanted
    simp only [Option.getD_some]
    cases u.lookup n <;> rfl

theorem dispatched_shape {h h' : Handler σ δ} (d : Dispatched h h') : SameShape h h' := by
  induction d with
  | refl => exact .refl _
  | step lineno args line _ ih => exact ih.trans (dispatch_shape ..)

theorem reset_eq {h : Handler σ δ} {n : Str} {r : Nat} {o : Obj σ δ} (hs : h.Serves n r) (ho : h.heap[r]? = some o) :
    h.reset n = ({ (h.create o.cls).1 with commands := assocSet n (some h.heap.length) h.commands }, none) := by
  unfold Handler.reset
  rw [show h.commands.lookup n = some (some r) from hs]
  simp only [ho]
  rw [show h.create o.cls = ((h.create o.cls).1, h.heap.length) from rfl]
  simp only [create_commands]

theorem mask_lookup (h : Handler σ δ) (lst : List Str) (n : Str) :
    (h.maskAllExcept lst).commands.lookup n = if n ∈ lst then h.commands.lookup n else (h.commands.lookup n).map fun _ => none := by
  unfold Handler.maskAllExcept
  simp only
  induction h.commands with
  | nil => simp
  | cons x t ih =>
    obtain ⟨k, v⟩ := x
    rw [List.map_cons]
    by_cases hk : k ∈ lst
    · simp only [if_pos hk, lookup_cons_ite]
      by_cases hn : n = k
      · subst hn; simp [hk]
      · simp only [if_neg hn]; exact ih
    · simp only [if_neg hk, lookup_cons_ite]
      by_cases hn : n = k
      · subst hn; simp [hk]
      · simp only [if_neg hn]; exact ih

theorem reachable_wf {h : Handler σ δ} (hr : h.Reachable) : h.Wf := by
  induction hr with
  | new => exact registered_nil.wf
  | @register h n c _ ih =>
    unfold Handler.register
    cases hf : h.findClass c.name h.commands with
    | some r =>
      refine wf_setName ih n ?_
      obtain ⟨⟨k, hk⟩, hc⟩ := findClass_some hf
      exact ih.cmds k r ((mem_iff_lookup ih.names).1 hk)
    | none =>
      exact wf_setName (create_wf ih c) n (by rw [create_heap]; simp)
  | @reset h n _ ih =>
    cases hl : h.commands.lookup n with
    | none => unfold Handler.reset; rw [hl]; exact ih
    | some v =>
      cases v with
      | none => unfold Handler.reset; rw [hl]; exact ih
      | some r =>
        obtain ⟨o, ho, _⟩ := className_lt (ih.cmds n r hl)
        rw [reset_eq hl ho]
        have := wf_setName (create_wf ih o.cls) n (r := h.heap.length) (by rw [create_heap]; simp)
        rw [create_commands] at this
        exact this
  | dispatch lineno args line _ ih => exact (dispatch_shape ..).wf ih
  | @mask h lst _ ih =>
    refine ⟨?_, ?_, ih.attrs, .nil, fun _ _ h => by simp [Handler.maskAllExcept] at h, fun _ _ h => by simp [Handler.maskAllExcept] at h⟩
    · have : (h.maskAllExcept lst).commands.map Prod.fst = h.commands.map Prod.fst := by
        simp only [Handler.maskAllExcept, List.map_map]
        refine List.map_congr_left fun x _ => ?_
        obtain ⟨k, v⟩ := x
        simp only [Function.comp]
        split <;> rfl
      rw [this]; exact ih.names
    intro n r hr
    rw [mask_lookup] at hr
    split at hr
    · exact ih.cmds n r hr
    · cases hl : h.commands.lookup n <;> rw [hl] at hr <;> simp at hr


/-! ## C45 -/

/-- C45: every name with a class is registered, with an object whose class has the same name, and
no other name is. -/
theorem C45_every_name {d : List (Str × CmdClass σ δ)} {mp up : Option (List (Str × CmdClass σ δ))} (hd : Dicts d mp up) (n : Str) :
    (∀ c, wanted d mp up n = some c →
      ∃ r o, (Handler.build d mp up).Serves n r ∧ (Handler.build d mp up).heap[r]? = some o ∧ o.cls.name = c.name) ∧
    (wanted d mp up n = none → (Handler.build d mp up).commands.lookup n = none) := by
  obtain ⟨m, b, _, hm⟩ := build_registered hd
  rw [← hm]
  exact ⟨b.served n, (b.names n).2⟩

/-- C45: two names are served by the same object exactly when their classes have the same name. -/
theorem C45_shared {d : List (Str × CmdClass σ δ)} {mp up : Option (List (Str × CmdClass σ δ))} (hd : Dicts d mp up)
    {n n' : Str} {c c' : CmdClass σ δ} (hn : wanted d mp up n = some c) (hn' : wanted d mp up n' = some c') :
    (Handler.build d mp up).commands.lookup n = (Handler.build d mp up).commands.lookup n' ↔ c.name = c'.name := by
  obtain ⟨m, b, _, hm⟩ := build_registered hd
  rw [← hm] at hn hn'
  obtain ⟨r, o, h1, h2, h3⟩ := b.served n c hn
  obtain ⟨r', o', h1', h2', h3'⟩ := b.served n' c' hn'
  rw [h1, h1', ← h3, ← h3']
  constructor
  · intro e; cases e
    rw [h2] at h2'; cases h2'; rfl
  · intro e
    have := b.distinct r r' (b.wf.cmds _ _ h1) (b.wf.cmds _ _ h1') (by simp [Handler.className, h2, h2', e])
    rw [this]

/-- C45: every object is new and belongs to the class of one of the names that it serves; there is
no other object. -/
theorem C45_objects {d : List (Str × CmdClass σ δ)} {mp up : Option (List (Str × CmdClass σ δ))} (hd : Dicts d mp up)
    {r : Nat} {o : Obj σ δ} (ho : (Handler.build d mp up).heap[r]? = some o) :
    o = o.cls.new ∧ ∃ n, wanted d mp up n = some o.cls ∧ (Handler.build d mp up).Serves n r := by
  obtain ⟨m, b, _, hm⟩ := build_registered hd
  obtain ⟨h1, n, h2, h3⟩ := b.objs r o ho
  exact ⟨h1, n, by rw [← hm, h2], h3⟩

/-! ## C46 -/

/-- C46: `str(handler)` is the text of a list of objects in which each object that serves a name
and has a priority stands exactly once, by increasing priority and, within a priority, by
increasing class name.  This holds after any number of lines have been read. -/
theorem C46_once_in_order {d : List (Str × CmdClass σ δ)} {mp up : Option (List (Str × CmdClass σ δ))} (hd : Dicts d mp up)
    {h : Handler σ δ} (hh : Dispatched (Handler.build d mp up) h) :
    ∃ L : List Nat, h.str = (L.map h.text).flatten ∧ L.Nodup ∧
      (∀ r, r ∈ L ↔ (∃ n, h.Serves n r) ∧ h.prioOf r ≠ none) ∧
      L.Pairwise fun a b => ∃ p q, h.prioOf a = some p ∧ h.prioOf b = some q ∧ (p < q ∨ p = q ∧ h.className a < h.className b) := by
  obtain ⟨m, b, _, hm⟩ := build_registered hd
  have s := dispatched_shape hh
  have w := s.wf b.wf
  refine ⟨h.written, h.str_eq, written_nodup w, fun r => ?_, written_sorted w⟩
  rw [s.written, b.written, s.prioOf]
  constructor
  · rintro ⟨hr, hp⟩
    obtain ⟨o, ho, _⟩ := className_lt hr
    obtain ⟨_, n, _, hn⟩ := b.objs r o ho
    exact ⟨⟨n, by unfold Handler.Serves; rw [s.commands]; exact hn⟩, hp⟩
  · rintro ⟨⟨n, hn⟩, hp⟩
    unfold Handler.Serves at hn
    rw [s.commands] at hn
    exact ⟨b.wf.cmds n r hn, hp⟩

/-- The classes by priority and name. -/
def clsBefore (a b : CmdClass σ δ) : Prop := ∃ p q, a.prio = some p ∧ b.prio = some q ∧ (p < q ∨ p = q ∧ a.name < b.name)

/-- The text of a new handler, from its classes alone. -/
theorem fresh_text {m : List (Str × CmdClass σ δ)} (hm : IsDict m) (hcons : ∀ x ∈ m, ∀ y ∈ m, x.2.name = y.2.name → x.2 = y.2) :
    ∃ K : List (CmdClass σ δ), (({} : Handler σ δ).registerAll m).str = (K.map fun c => c.str c.new.inst).flatten ∧
      K.Pairwise clsBefore ∧ ∀ c, c ∈ K ↔ c.prio ≠ none ∧ c ∈ m.map Prod.snd := by
  have b := registerAll_registered hm
  generalize hh : ({} : Handler σ δ).registerAll m = h at *
  have hobj : ∀ r ∈ h.written, ∃ o, h.heap[r]? = some o ∧ o = o.cls.new := by
    intro r hr
    obtain ⟨o, ho, _⟩ := className_lt ((b.written r).1 hr).1
    exact ⟨o, ho, (b.objs r o ho).1⟩
  refine ⟨h.written.filterMap fun r => h.heap[r]?.map (·.cls), ?_, ?_, ?_⟩
  · rw [h.str_eq]
    have : ∀ L : List Nat, (∀ r ∈ L, ∃ o, h.heap[r]? = some o ∧ o = o.cls.new) →
        (L.map h.text).flatten = ((L.filterMap fun r => h.heap[r]?.map (·.cls)).map fun c => c.str c.new.inst).flatten := by
      intro L hL
      induction L with
      | nil => rfl
      | cons r t ih =>
        obtain ⟨o, ho, hn⟩ := hL r (by simp)
        rw [List.filterMap_cons, ho]
        simp only [Option.map_some, List.map_cons, List.flatten_cons]
        rw [ih fun x hx => hL x (by simp [hx])]
        congr 1
        simp only [Handler.text, ho]
        rw [← congrArg Obj.inst hn]
    exact this _ hobj
  · rw [List.pairwise_filterMap]
    refine (written_sorted b.wf).imp ?_
    intro x y hxy c hc c' hc'
    obtain ⟨p, q, hp, hq, hpq⟩ := hxy
    cases hx : h.heap[x]? with
    | none => rw [hx] at hc; simp at hc
    | some o =>
      cases hy : h.heap[y]? with
      | none => rw [hy] at hc'; simp at hc'
      | some o' =>
        rw [hx] at hc; rw [hy] at hc'
        simp at hc hc'
        subst hc hc'
        simp only [Handler.prioOf, hx, hy, Option.bind_some] at hp hq
        simp only [Handler.className, hx, hy] at hpq
        exact ⟨p, q, hp, hq, hpq⟩
  · intro c
    rw [List.mem_filterMap]
    constructor
    · rintro ⟨r, hr, hc⟩
      obtain ⟨hlt, hp⟩ := (b.written r).1 hr
      cases ho : h.heap[r]? with
      | none => rw [ho] at hc; simp at hc
      | some o =>
        rw [ho] at hc
        simp at hc
        subst hc
        simp only [Handler.prioOf, ho, Option.bind_some] at hp
        obtain ⟨_, n, hn, _⟩ := b.objs r o ho
        exact ⟨hp, List.mem_map.2 ⟨(n, o.cls), (mem_iff_lookup hm).2 hn, rfl⟩⟩
    · rintro ⟨hp, hc⟩
      obtain ⟨⟨n, c'⟩, hx, rfl⟩ := List.mem_map.1 hc
      obtain ⟨r, o, h1, h2, h3⟩ := b.served n c' ((mem_iff_lookup hm).1 hx)
      obtain ⟨_, n', hn', _⟩ := b.objs r o h2
      have : o.cls = c' := hcons (n', o.cls) ((mem_iff_lookup hm).2 hn') (n, c') hx h3
      refine ⟨r, ?_, by rw [h2]; simp [this]⟩
      rw [b.written]
      exact ⟨b.wf.cmds n r h1, by simp only [Handler.prioOf, h2, Option.bind_some]; rw [this]; exact hp⟩

/-- C46: the text of a new handler does not depend on the order of the command map, provided that
no two different classes in it have the same name. -/
theorem C46_order_independent {m m' : List (Str × CmdClass σ δ)} (hm : IsDict m) (hp : m.Perm m')
    (hcons : ∀ x ∈ m, ∀ y ∈ m, x.2.name = y.2.name → x.2 = y.2) :
    (Handler.build m none none).str = (Handler.build m' none none).str := by
  have hm' : IsDict m' := (hp.map Prod.fst).nodup_iff.1 hm
  obtain ⟨K, h1, h2, h3⟩ := fresh_text hm hcons
  obtain ⟨K', h1', h2', h3'⟩ := fresh_text hm' (fun x hx y hy => hcons x (hp.mem_iff.2 hx) y (hp.mem_iff.2 hy))
  have : K = K' := by
    refine sorted_unique (R := clsBefore) ?_ ?_ h2 h2' fun c => ?_
    · rintro a ⟨p, q, hp, hq, h⟩
      rw [hp] at hq; cases hq
      rcases h with h | ⟨_, h⟩
      · omega
      · exact List.lt_irrefl _ h
    · rintro a b ⟨p, q, hp, hq, h⟩ ⟨p', q', hp', hq', h'⟩
      rw [hp] at hq'; rw [hq] at hp'
      cases hq'; cases hp'
      rcases h with h | ⟨_, h⟩ <;> rcases h' with h' | ⟨_, h'⟩
      · omega
      · omega
      · omega
      · exact List.lt_asymm h h'
    · rw [h3, h3', (hp.map Prod.snd).mem_iff]
  show (({} : Handler σ δ).registerAll m).str = (({} : Handler σ δ).registerAll m').str
  rw [h1, h1', this]

/-! ## C47 -/

/-- C47: an unknown name. -/
theorem C47_unknown (h : Handler σ δ) (n : Str) (hn : h.commands.lookup n = none) : h.reset n = (h, some .key) := by
  simp [Handler.reset, hn]

/-- C47: a known name gets a new object of the same class; no other object, name or attribute of
the handler changes, and the new object takes the place of the objects of that class name and
priority in the output. -/
theorem C47_fresh {h : Handler σ δ} (hr : h.Reachable) {n : Str} {r : Nat} (hs : h.Serves n r) :
    ∃ o h', h.heap[r]? = some o ∧ h.reset n = (h', none) ∧
      h'.Serves n h.heap.length ∧ h'.heap = h.heap ++ [o.cls.new] ∧
      (∀ n', n' ≠ n → h'.commands.lookup n' = h.commands.lookup n') ∧
      h'.attrs.lookup (attrName o.cls.name) = some h.heap.length ∧
      (∀ a, a ≠ attrName o.cls.name → h'.attrs.lookup a = h.attrs.lookup a) ∧
      h'.str = (h'.written.map h'.text).flatten ∧ h'.written.Pairwise h'.Before ∧
      ∀ x, x ∈ h'.written ↔
        (x = h.heap.length ∧ o.cls.prio ≠ none) ∨ (x ∈ h.written ∧ ¬ (h.prioOf x = o.cls.prio ∧ h.className x = o.cls.name)) := by
  have w := reachable_wf hr
  obtain ⟨o, ho, _⟩ := className_lt (w.cmds n r hs)
  have w' : Handler.Wf ({ (h.create o.cls).1 with commands := assocSet n (some h.heap.length) h.commands } : Handler σ δ) := by
    have := reachable_wf (hr.reset n)
    rw [reset_eq hs ho] at this
    exact this
  refine ⟨o, _, ho, reset_eq hs ho, ?_, create_heap h o.cls, ?_, ?_, ?_, Handler.str_eq _, written_sorted w', ?_⟩
  · simp [Handler.Serves, lookup_assocSet]
  · intro n' hn'
    simp only [lookup_assocSet, if_neg hn']
  · simp only [create_attrs, lookup_assocSet]; simp
  · intro a ha
    simp only [create_attrs, lookup_assocSet, if_neg ha]
  · intro x
    exact mem_written_create w o.cls

/-- C47: in the usual case, that the object was written before, the new object is written in its
place. -/
theorem C47_same_place {h : Handler σ δ} (hr : h.Reachable) {n : Str} {r : Nat} (hs : h.Serves n r) (hw : r ∈ h.written) :
    (h.reset n).1.written = h.written.map fun x => if x = r then h.heap.length else x := by
  have w := reachable_wf hr
  obtain ⟨o, h', ho, he, _, hheap, _, _, _, _, hsorted, hmem⟩ := C47_fresh hr hs
  rw [he]
  obtain ⟨p, hp⟩ := prio_of_written w hw
  have hprio : o.cls.prio = some p := by simpa [Handler.prioOf, ho] using hp
  have hname : h.className r = o.cls.name := by simp [Handler.className, ho]
  have hpo : ∀ x ∈ h.written, h'.prioOf (if x = r then h.heap.length else x) = h.prioOf x ∧
      h'.className (if x = r then h.heap.length else x) = h.className x := by
    intro x hx
    by_cases hxr : x = r
    · subst hxr
      rw [if_pos rfl]
      simp [Handler.prioOf, Handler.className, hheap, ho, CmdClass.new]
    · rw [if_neg hxr]
      obtain ⟨q, hq⟩ := prio_of_written w hx
      have hlt := prioOf_lt hq
      simp [Handler.prioOf, Handler.className, hheap, List.getElem?_append_left hlt]
  refine sorted_unique (fun _ => before_irrefl) ?_ hsorted ?_ ?_
  · rintro a b ⟨p, q, hp, hq, h⟩ ⟨p', q', hp', hq', h'⟩
    rw [hp] at hq'; rw [hq] at hp'
    cases hq'; cases hp'
    rcases h with h | ⟨_, h⟩ <;> rcases h' with h' | ⟨_, h'⟩
    · omega
    · omega
    · omega
    · exact List.lt_asymm h h'
  · rw [List.pairwise_map]
    refine List.Pairwise.imp_of_mem ?_ (written_sorted w)
    rintro a b ha hb ⟨p, q, hpa, hpb, hlt⟩
    exact ⟨p, q, by rw [(hpo a ha).1, hpa], by rw [(hpo b hb).1, hpb], by rw [(hpo a ha).2, (hpo b hb).2]; exact hlt⟩
  · intro x
    rw [hmem, List.mem_map]
    constructor
    · rintro (⟨rfl, _⟩ | ⟨hx, hne⟩)
      · exact ⟨r, hw, by simp⟩
      · exact ⟨x, hx, if_neg fun e => hne ⟨by rw [e, hp, hprio], by rw [e, hname]⟩⟩
    · rintro ⟨y, hy, rfl⟩
      by_cases hyr : y = r
      · rw [if_pos hyr]; exact .inl ⟨rfl, by rw [hprio]; simp⟩
      · rw [if_neg hyr]
        refine .inr ⟨hy, ?_⟩
        rintro ⟨h1, h2⟩
        -- two written objects with the same priority and class name are the same
        have hnd := written_sorted w
        have := pairwise_total hnd hy hw hyr
        rw [hprio] at h1
        rw [← hname] at h2
        rcases this with ⟨a, b, ha, hb, hab⟩ | ⟨a, b, ha, hb, hab⟩
        · rw [h1] at ha; rw [hp] at hb; cases ha; cases hb
          rcases hab with hab | ⟨_, hab⟩
          · omega
          · rw [h2] at hab; exact List.lt_irrefl _ hab
        · rw [hp] at ha; rw [h1] at hb; cases ha; cases hb
          rcases hab with hab | ⟨_, hab⟩
          · omega
          · rw [h2] at hab; exact List.lt_irrefl _ hab

/-- C47, what it does not do: another name of the same command keeps the old object, which is no
longer written, so what is read under that name is lost on output. -/
theorem C47_alias_stale {h : Handler σ δ} (hr : h.Reachable) {n n' : Str} {r : Nat} (hs : h.Serves n r) (hne : n' ≠ n) (hs' : h.Serves n' r)
    (lineno : Nat) (args : List Str) (line : Str) :
    (h.reset n).1.Serves n' r ∧ ((h.reset n).1.dispatch lineno (n' :: args) line).1.str = (h.reset n).1.str := by
  have w := reachable_wf hr
  obtain ⟨o, h', ho, he, _, hheap, hother, _, _, _, _, hmem⟩ := C47_fresh hr hs
  rw [he]
  have hsv : h'.commands.lookup n' = some (some r) := by rw [hother n' hne]; exact hs'
  refine ⟨hsv, ?_⟩
  have hnw : r ∉ h'.written := by
    rw [hmem]
    rintro (⟨e, _⟩ | ⟨_, hn⟩)
    · have := w.cmds n r hs; omega
    · exact hn ⟨by simp [Handler.prioOf, ho], by simp [Handler.className, ho]⟩
  rw [Handler.str_eq, Handler.str_eq, (dispatch_shape h' lineno (n' :: args) line).written]
  congr 1
  refine List.map_congr_left fun x hx => ?_
  have hxr : r ≠ x := fun e => hnw (e ▸ hx)
  rw [Handler.dispatch, hsv]
  simp only
  cases ho' : h'.heap[r]? with
  | none => rfl
  | some o' =>
    simp only
    split <;> simp [Handler.text, Handler.setInst, List.getElem?_set_ne hxr]

/-! ## C48 -/

/-- C48: an unknown command. -/
theorem C48_unknown (h : Handler σ δ) (lineno : Nat) (n : Str) (args : List Str) (line : Str) (hn : h.commands.lookup n = none) :
    h.dispatch lineno (n :: args) line = (h, some (.parse (c!"Unknown command: " ++ n) (some lineno))) := by
  simp [Handler.dispatch, hn]

/-- C48: a masked command. -/
theorem C48_masked (h : Handler σ δ) (lineno : Nat) (n : Str) (args : List Str) (line : Str) (hn : h.commands.lookup n = some none) :
    h.dispatch lineno (n :: args) line = (h, none) := by
  simp [Handler.dispatch, hn]

/-- What the command's own `parse` is called with. -/
def Inst.noted (i : Inst σ) (n line : Str) (lineno : Nat) : Inst σ :=
  { currentCmd := n, currentLine := line, lineno := lineno, seen := true, attrs := i.attrs }

/-- C48: a known command.  Its `parse` is called once, with the command marked as seen and with the
name, line and line number noted.  An exception of `parse` is passed on.  Without one, a data object is
appended once if `parse` returned one and the command has a list.  No other object changes, and
the registry does not change. -/
theorem C48_known {h : Handler σ δ} (hr : h.Reachable) {n : Str} {r : Nat} (hs : h.Serves n r) (lineno : Nat) (args : List Str) (line : Str) :
    ∃ (o : Obj σ δ) (seen : Str → Option Bool) (i : Inst σ) (res : Except Exc (Option δ)),
      h.heap[r]? = some o ∧ o.cls.parse seen args (o.inst.noted n line lineno) = (i, res) ∧
      (h.dispatch lineno (n :: args) line).2 = (match res with | .error e => some e | .ok _ => none) ∧
      (h.dispatch lineno (n :: args) line).1.heap[r]? = some ⟨o.cls,
        match res with
        | .ok (some d) => if o.cls.hasList i then o.cls.addData d i else i
        | _ => i⟩ ∧
      (∀ r', r' ≠ r → (h.dispatch lineno (n :: args) line).1.heap[r']? = h.heap[r']?) ∧
      (h.dispatch lineno (n :: args) line).1.commands = h.commands ∧
      (h.dispatch lineno (n :: args) line).1.writeOrder = h.writeOrder ∧
      (h.dispatch lineno (n :: args) line).1.attrs = h.attrs ∧
      ∀ a, seen a = (h.attrs.lookup a).bind fun r' => if r' = r then some true else h.heap[r']?.map (·.inst.seen) := by
  have w := reachable_wf hr
  have hlt := w.cmds n r hs
  obtain ⟨o, ho, _⟩ := className_lt hlt
  have hshape := dispatch_shape h lineno (n :: args) line
  refine ⟨o, (h.setInst r o (o.inst.noted n line lineno)).seenAttr, (o.cls.parse (h.setInst r o (o.inst.noted n line lineno)).seenAttr args (o.inst.noted n line lineno)).1,
    (o.cls.parse (h.setInst r o (o.inst.noted n line lineno)).seenAttr args (o.inst.noted n line lineno)).2, ho, rfl, ?_, ?_, ?_,
    hshape.commands, hshape.writeOrder, hshape.attrs, ?_⟩
  · rw [Handler.dispatch, show h.commands.lookup n = some (some r) from hs]
    simp only [ho]
    unfold Inst.noted
    generalize o.cls.parse _ args _ = pr
    obtain ⟨i, _ | _ | d⟩ := pr <;> rfl
  · rw [Handler.dispatch, show h.commands.lookup n = some (some r) from hs]
    simp only [ho]
    unfold Inst.noted
    generalize o.cls.parse _ args _ = pr
    obtain ⟨i, _ | _ | d⟩ := pr <;> simp [Handler.setInst, hlt]
  · intro r' hr'
    rw [Handler.dispatch, show h.commands.lookup n = some (some r) from hs]
    simp only [ho]
    split <;> simp [Handler.setInst, List.getElem?_set_ne (Ne.symm hr')]
  · intro a
    unfold Handler.seenAttr
    simp only [Handler.setInst]
    cases h.attrs.lookup a with
    | none => rfl
    | some r' =>
      simp only [Option.bind_some]
      by_cases hrr : r' = r
      · subst hrr; simp [hlt, Inst.noted]
      · rw [if_neg hrr, List.getElem?_set_ne (Ne.symm hrr)]

/-- C48: if the command's `parse` leaves the marks alone, the command counts as seen even when
`parse` raised an exception. -/
theorem C48_seen {h : Handler σ δ} (hr : h.Reachable) {n : Str} {r : Nat} (hs : h.Serves n r) (lineno : Nat) (args : List Str) (line : Str)
    (hparse : ∀ o, h.heap[r]? = some o → ∀ seen i, i.seen = true → (o.cls.parse seen args i).1.seen = true)
    (hadd : ∀ o, h.heap[r]? = some o → ∀ d i, i.seen = true → (o.cls.addData d i).seen = true) :
    ∃ o, (h.dispatch lineno (n :: args) line).1.heap[r]? = some o ∧ o.inst.seen = true := by
  obtain ⟨o, seen, i, res, ho, hp, _, h1, _⟩ := C48_known hr hs lineno args line
  refine ⟨_, h1, ?_⟩
  have hi : i.seen = true := by
    have := hparse o ho seen (o.inst.noted n line lineno) rfl
    rw [hp] at this; exact this
  cases res with
  | error e => exact hi
  | ok d =>
    cases d with
    | none => exact hi
    | some d =>
      simp only
      split
      · exact hadd o ho d i hi
      · exact hi

/-! ## C49 -/

/-- C49: a command that is registered and not listed has no effect and raises nothing. -/
theorem C49_masked (h : Handler σ δ) (lst : List Str) (n : Str) (hn : n ∉ lst) (hreg : (h.commands.lookup n).isSome = true)
    (lineno : Nat) (args : List Str) (line : Str) :
    (h.maskAllExcept lst).dispatch lineno (n :: args) line = (h.maskAllExcept lst, none) := by
  refine C48_masked _ _ _ _ _ ?_
  rw [mask_lookup, if_neg hn]
  cases hl : h.commands.lookup n with
  | none => rw [hl] at hreg; cases hreg
  | some v => rfl

/-- C49: a command that is not registered is still unknown. -/
theorem C49_unknown (h : Handler σ δ) (lst : List Str) (n : Str) (hreg : h.commands.lookup n = none) :
    (h.maskAllExcept lst).commands.lookup n = none := by
  rw [mask_lookup, hreg]; simp

/-- C49: listed commands work as before: the same objects end up with the same attributes, and the
same exceptions are raised. -/
theorem C49_listed (h : Handler σ δ) (lst : List Str) (n : Str) (hn : n ∈ lst) (lineno : Nat) (args : List Str) (line : Str) :
    ((h.maskAllExcept lst).dispatch lineno (n :: args) line).2 = (h.dispatch lineno (n :: args) line).2 ∧
    ((h.maskAllExcept lst).dispatch lineno (n :: args) line).1.heap = (h.dispatch lineno (n :: args) line).1.heap := by
  have hl : (h.maskAllExcept lst).commands.lookup n = h.commands.lookup n := by rw [mask_lookup, if_pos hn]
  rw [Handler.dispatch, Handler.dispatch, hl]
  cases h.commands.lookup n with
  | none => exact ⟨rfl, rfl⟩
  | some v =>
    cases v with
    | none => exact ⟨rfl, rfl⟩
    | some r =>
      simp only [show (h.maskAllExcept lst).heap = h.heap from rfl]
      cases ho : h.heap[r]? with
      | none => exact ⟨rfl, rfl⟩
      | some o =>
        simp only
        rw [show ∀ i, ((h.maskAllExcept lst).setInst r o i).seenAttr = (h.setInst r o i).seenAttr from fun _ => rfl]
        split <;> exact ⟨rfl, rfl⟩

/-- C49: nothing is written any more, whatever is read afterwards. -/
theorem C49_nothing_written (h : Handler σ δ) (lst : List Str) {h' : Handler σ δ} (hd : Dispatched (h.maskAllExcept lst) h') : h'.str = [] := by
  rw [Handler.str_eq, (dispatched_shape hd).written]
  rfl

/-! ## C50 -/

/-- C50: a name in `commandUpdates` is served by an object of the class given there, if no other
name has a class with that name. -/
theorem C50_updated {d : List (Str × CmdClass σ δ)} {mp : Option (List (Str × CmdClass σ δ))} {u : List (Str × CmdClass σ δ)} (hd : Dicts d mp (some u))
    {n : Str} {c : CmdClass σ δ} (hn : u.lookup n = some c)
    (huniq : ∀ n' c', wanted d mp (some u) n' = some c' → c'.name = c.name → c' = c) :
    ∃ r, (Handler.build d mp (some u)).Serves n r ∧ (Handler.build d mp (some u)).heap[r]? = some c.new := by
  have hw : wanted d mp (some u) n = some c := by simp [wanted, hn]
  obtain ⟨r, o, h1, h2, h3⟩ := (C45_every_name hd n).1 c hw
  obtain ⟨h4, n', h5, _⟩ := C45_objects hd h2
  have := huniq n' o.cls h5 h3
  refine ⟨r, h1, ?_⟩
  rw [h2, h4, this]

/-- C50: every other name is served by an object of the class it has without the updates, again
if no other name has a class with that name. -/
theorem C50_kept {d : List (Str × CmdClass σ δ)} {mp : Option (List (Str × CmdClass σ δ))} {u : List (Str × CmdClass σ δ)} (hd : Dicts d mp (some u))
    {n : Str} {c : CmdClass σ δ} (hn : u.lookup n = none) (hc : wanted d mp none n = some c)
    (huniq : ∀ n' c', wanted d mp (some u) n' = some c' → c'.name = c.name → c' = c) :
    ∃ r, (Handler.build d mp (some u)).Serves n r ∧ (Handler.build d mp (some u)).heap[r]? = some c.new := by
  have hw : wanted d mp (some u) n = some c := by
    rw [← hc]; simp [wanted, hn]
  obtain ⟨r, o, h1, h2, h3⟩ := (C45_every_name hd n).1 c hw
  obtain ⟨h4, n', h5, _⟩ := C45_objects hd h2
  have := huniq n' o.cls h5 h3
  refine ⟨r, h1, ?_⟩
  rw [h2, h4, this]

/-- C50: the updates neither remove nor rename anything: the names are those of the map and those
of the updates. -/
theorem C50_names {d : List (Str × CmdClass σ δ)} {mp : Option (List (Str × CmdClass σ δ))} {u : List (Str × CmdClass σ δ)} (hd : Dicts d mp (some u)) (n : Str) :
    (∃ r, (Handler.build d mp (some u)).Serves n r) ↔ (u.lookup n).isSome = true ∨ (wanted d mp none n).isSome = true := by
  have key : (wanted d mp (some u) n).isSome = true ↔ (u.lookup n).isSome = true ∨ (wanted d mp none n).isSome = true := by
    simp only [wanted, Option.getD_some, Option.getD_none, List.lookup_nil]
    cases u.lookup n <;> simp
  rw [← key]
  constructor
  · rintro ⟨r, hr⟩
    cases hw : wanted d mp (some u) n with
    | some c => rfl
    | none =>
      have := (C45_every_name hd n).2 hw
      rw [Handler.Serves, this] at hr; cases hr
  · intro h
    obtain ⟨c, hc⟩ := Option.isSome_iff_exists.1 h
    obtain ⟨r, _, h1, _⟩ := (C45_every_name hd n).1 c hc
    exact ⟨r, h1⟩

/-! ## C51 -/

theorem call_const {ν : Type} (o : CallObj ν) (kw : List (Str × ν)) : (o.call kw).removed = o.removed ∧ (o.call kw).classAttrs = o.classAttrs := by
  induction kw generalizing o with
  | nil => exact ⟨rfl, rfl⟩
  | cons x t ih =>
    obtain ⟨k, v⟩ := x
    rw [CallObj.call]
    split
    · exact ih o
    · split
      · exact ih _
      · exact ih o

theorem call_lookup {ν : Type} (o : CallObj ν) (kw : List (Str × ν)) (hkw : IsDict kw) (k : Str) :
    (o.call kw).attrs.lookup k =
      if k ∉ o.removed ∧ o.has k = true then (kw.lookup k).or (o.attrs.lookup k) else o.attrs.lookup k := by
  induction kw generalizing o with
  | nil => simp [CallObj.call]
  | cons x t ih =>
    obtain ⟨a, v⟩ := x
    have hk' : a ∉ t.map Prod.fst ∧ IsDict t := by
      unfold IsDict at hkw; rw [List.map_cons, List.nodup_cons] at hkw; exact hkw
    rw [CallObj.call, lookup_cons_ite]
    by_cases h1 : a ∈ o.removed
    · rw [if_pos h1, ih o hk'.2]
      by_cases hka : k = a
      · subst hka; simp [h1]
      · rw [if_neg hka]
    · rw [if_neg h1]
      by_cases h2 : o.has a = true
      · rw [if_pos h2, ih _ hk'.2]
        have hhas : ({ o with attrs := assocSet a v o.attrs } : CallObj ν).has k = o.has k := by
          unfold CallObj.has
          simp only [lookup_assocSet]
          by_cases hka : k = a
          · subst hka
            rw [if_pos rfl]
            have := h2
            unfold CallObj.has at this
            rw [this]; rfl
          · rw [if_neg hka]
        rw [hhas]
        by_cases hka : k = a
        · subst hka
          simp only [lookup_assocSet, if_true, lookup_none_iff.2 hk'.1, h2, h1, not_false_eq_true, and_self]
          rfl
        · simp only [lookup_assocSet, if_neg hka]
      · rw [if_neg h2, ih o hk'.2]
        by_cases hka : k = a
        · subst hka; simp [h2]
        · rw [if_neg hka]

/-- C51: a data object.  A keyword sets the attribute of that name if the object has it and it was
not removed; otherwise it is ignored.  Everything else stays as it is. -/
theorem C51_data {ν : Type} (o : CallObj ν) (kw : List (Str × ν)) (hkw : IsDict kw) (k : Str) :
    (∀ v, kw.lookup k = some v → o.has k = true → k ∉ o.removed → (o.call kw).attrs.lookup k = some v) ∧
    (kw.lookup k = none ∨ o.has k = false ∨ k ∈ o.removed → (o.call kw).attrs.lookup k = o.attrs.lookup k) := by
  rw [call_lookup o kw hkw]
  refine ⟨fun v hv h1 h2 => ?_, ?_⟩
  · rw [if_pos ⟨h2, h1⟩, hv]; rfl
  · rintro (h | h | h)
    · rw [h]; simp
    · rw [if_neg (by simp [h])]
    · rw [if_neg (by simp [h])]

/-- C51: a command object, which is marked as seen as well (unless the keyword `seen` says
otherwise). -/
theorem C51_command {ν : Type} (o : CallObj ν) (yes : ν) (kw : List (Str × ν)) (hkw : IsDict kw) (k : Str) :
    (∀ v, kw.lookup k = some v → o.has k = true → k ∉ o.removed → (o.callCommand yes kw).attrs.lookup k = some v) ∧
    (kw.lookup k = none ∨ o.has k = false ∨ k ∈ o.removed → k ≠ c!"seen" → (o.callCommand yes kw).attrs.lookup k = o.attrs.lookup k) ∧
    (kw.lookup c!"seen" = none → (o.callCommand yes kw).attrs.lookup c!"seen" = some yes) := by
  unfold CallObj.callCommand
  have hhas : ∀ k, k ≠ c!"seen" → ({ o with attrs := assocSet c!"seen" yes o.attrs } : CallObj ν).has k = o.has k := by
    intro k hk
    simp only [CallObj.has, lookup_assocSet, if_neg hk]
  refine ⟨fun v hv h1 h2 => ?_, ?_, ?_⟩
  · refine (C51_data _ kw hkw k).1 v hv ?_ h2
    by_cases hk : k = c!"seen"
    · simp [CallObj.has, lookup_assocSet, hk]
    · rw [hhas k hk, h1]
  · intro h hk
    rw [(C51_data _ kw hkw k).2 (by rw [hhas k hk]; exact h)]
    simp only [lookup_assocSet, if_neg hk]
  · intro h
    rw [(C51_data _ kw hkw _).2 (.inl h)]
    simp only [lookup_assocSet, if_true]

/-- C51: after `deleteRemovedAttrs` a removed attribute is gone and can not be set any more by
calling the object. -/
theorem C51_removed {ν : Type} (o : CallObj ν) (hc : ∀ k ∈ o.removed, k ∉ o.classAttrs) (kw : List (Str × ν)) (hkw : IsDict kw) (k : Str) (hk : k ∈ o.removed) :
    ((o.deleteRemoved o.removed).1.call kw).attrs.lookup k = none ∧ (o.deleteRemoved o.removed).2 = none := by
  have key : ∀ (l : List Str) (o : CallObj ν), (∀ k ∈ l, k ∉ o.classAttrs) →
      (o.deleteRemoved l).2 = none ∧ (o.deleteRemoved l).1.removed = o.removed ∧
      ∀ k, (k ∈ l ∨ o.attrs.lookup k = none) → (o.deleteRemoved l).1.attrs.lookup k = none := by
    intro l
    induction l with
    | nil => intro o _; exact ⟨rfl, rfl, fun k hk => by simpa [CallObj.deleteRemoved] using hk⟩
    | cons a t ih =>
      intro o hc
      have hfil : ∀ x, (o.attrs.filter fun p => p.1 ≠ a).lookup x = if x = a then none else o.attrs.lookup x := by
        intro x
        induction o.attrs with
        | nil => simp
        | cons p q ihq =>
          obtain ⟨y, z⟩ := p
          by_cases hya : y = a
          · rw [List.filter_cons_of_neg (by simp [hya]), ihq, lookup_cons_ite]
            by_cases hx : x = a
            · simp [hx]
            · rw [if_neg hx, if_neg hx, if_neg (fun e => hx (e.trans hya))]
          · rw [List.filter_cons_of_pos (by simp [hya]), lookup_cons_ite, lookup_cons_ite, ihq]
            by_cases hxy : x = y
            · subst hxy; simp [hya]
            · rw [if_neg hxy, if_neg hxy]
      rw [CallObj.deleteRemoved]
      by_cases ha : (o.attrs.lookup a).isSome = true
      · rw [if_pos ha]
        have := ih { o with attrs := o.attrs.filter fun p => p.1 ≠ a } fun k hk => hc k (by simp [hk])
        refine ⟨this.1, this.2.1, fun k hk => this.2.2 k ?_⟩
        simp only [hfil]
        by_cases hka : k = a
        · exact .inr (by simp [hka])
        · rw [if_neg hka]
          rcases hk with hk | hk
          · exact .inl ((List.mem_cons.1 hk).resolve_left hka)
          · exact .inr hk
      · rw [if_neg ha, if_neg (hc a (by simp))]
        have := ih o fun k hk => hc k (by simp [hk])
        refine ⟨this.1, this.2.1, fun k hk => this.2.2 k ?_⟩
        rcases hk with hk | hk
        · rcases List.mem_cons.1 hk with rfl | hk
          · exact .inr (Option.not_isSome_iff_eq_none.1 ha)
          · exact .inl hk
        · exact .inr hk
  obtain ⟨h1, h2, h3⟩ := key o.removed o hc
  refine ⟨?_, h1⟩
  rw [(C51_data _ kw hkw k).2 (.inr (.inr (by rw [h2]; exact hk)))]
  exact h3 k (.inl hk)

/-! ## The hypotheses can be met -/

/-- A command class that counts its lines, refuses the argument `bad` and collects data. -/
def counter (name : Str) (prio : Option Int) : CmdClass (Nat × List Str) Str where
  name := name
  prio := prio
  init := (0, [])
  parse := fun seen args i =>
    let i := { i with attrs := (i.attrs.1 + 1, i.attrs.2) }
    if c!"bad" ∈ args then (i, .error (.parse c!"bad" (some i.lineno)))
    else if seen c!"other" = some true then (i, .ok none)
    else (i, .ok args.head?)
  hasList := fun _ => true
  addData := fun d i => { i with attrs := (i.attrs.1, i.attrs.2 ++ [d]) }
  str := fun i => name ++ c!" " ++ natDigits i.attrs.1 ++ joinWith c!"," i.attrs.2 ++ c!"\n"

/-- Five names, three classes. -/
def sampleMap : List (Str × CmdClass (Nat × List Str) Str) :=
  [(c!"part", counter c!"F34_Partition" (some 130)), (c!"reboot", counter c!"F23_Reboot" (some 0)), (c!"partition", counter c!"F34_Partition" (some 130)),
   (c!"autopart", counter c!"F29_AutoPart" (some 100)), (c!"halt", counter c!"F23_Reboot" (some 0)), (c!"lilo", counter c!"F34_Lilo" none)]

theorem sampleMap_dicts (up : List (Str × CmdClass (Nat × List Str) Str)) (hu : IsDict up) : Dicts sampleMap none (some up) :=
  ⟨(by unfold IsDict sampleMap; decide +kernel), (fun _ h => by cases h), fun m h => by cases h; exact hu⟩

example : Dicts sampleMap none none := ⟨(by unfold IsDict sampleMap; decide +kernel), (fun _ h => by cases h), fun _ h => by cases h⟩
example : ((Handler.build sampleMap none none).dispatch 7 [c!"part", c!"/home"] c!"part /home\n").1.str =
    c!"F23_Reboot 0\nF29_AutoPart 0\nF34_Partition 1/home\n" := by decide +kernel
example : (Handler.build sampleMap none none).commands.lookup c!"part" = (Handler.build sampleMap none none).commands.lookup c!"partition" := by decide +kernel
example : (Handler.build sampleMap none none).str = (Handler.build sampleMap.reverse none none).str := by
  refine C46_order_independent (by unfold IsDict sampleMap; decide +kernel) (List.reverse_perm _).symm ?_
  intro x hx y hy he
  simp only [sampleMap, List.mem_cons, List.not_mem_nil, or_false] at hx hy
  rcases hx with rfl | rfl | rfl | rfl | rfl | rfl <;> rcases hy with rfl | rfl | rfl | rfl | rfl | rfl <;> first | rfl | (exfalso; revert he; decide)
/-- Resetting `part` leaves `partition` with the old object. -/
example : let h := (Handler.build sampleMap none none).reset c!"part"
    h.2 = none ∧ h.1.commands.lookup c!"part" = some (some 4) ∧ h.1.commands.lookup c!"partition" = some (some 0) ∧
    (h.1.dispatch 1 [c!"partition", c!"/x"] []).1.str = h.1.str ∧ (h.1.dispatch 1 [c!"part", c!"/x"] []).1.str ≠ h.1.str := by decide +kernel

theorem sample_reachable : (Handler.build sampleMap none none).Reachable := by
  show (({} : Handler (Nat × List Str) Str).registerAll sampleMap).Reachable
  simp only [sampleMap, Handler.registerAll]
  exact ((((((.new : Handler.Reachable {}).register _ _).register _ _).register _ _).register _ _).register _ _).register _ _

example : ∃ r, (Handler.build sampleMap none none).Serves c!"part" r ∧ r ∈ (Handler.build sampleMap none none).written := ⟨0, by unfold Handler.Serves; decide +kernel, by decide +kernel⟩
example : ((Handler.build sampleMap none none).dispatch 3 [c!"halt", c!"bad"] []).2 = some (.parse c!"bad" (some 3)) := by decide +kernel
example : ((Handler.build sampleMap none none).maskAllExcept [c!"part"]).dispatch 3 [c!"halt", c!"bad"] [] = ((Handler.build sampleMap none none).maskAllExcept [c!"part"], none) :=
  C49_masked _ _ _ (by decide) (by decide +kernel) ..
/-- An update of one name of a shared class. -/
example : ∃ r, (Handler.build sampleMap none (some [(c!"halt", counter c!"My_Halt" none)])).Serves c!"halt" r ∧
    (Handler.build sampleMap none (some [(c!"halt", counter c!"My_Halt" none)])).heap[r]? = some (counter c!"My_Halt" none).new := by
  refine C50_updated (sampleMap_dicts _ (by unfold IsDict; decide +kernel)) rfl ?_
  intro n' c' h he
  simp only [wanted, Option.getD_some, Option.getD_none, sampleMap, lookup_cons_ite, List.lookup_nil] at h
  by_cases h0 : n' = c!"halt"
  · rw [if_pos h0] at h; cases h; rfl
  · rw [if_neg h0] at h
    simp only at h
    repeat' split at h
    all_goals first | (cases h; exfalso; revert he; decide) | cases h
example : (CallObj.callCommand ⟨[(c!"a", 0), (c!"seen", 0)], [c!"parse"], [c!"b"]⟩ 1 [(c!"a", 5), (c!"b", 6), (c!"z", 7)]).attrs = [(c!"a", 5), (c!"seen", 1)] := by decide +kernel

end Ks
