import Verif.Commands.MapsOk
/-!
# Handlers of real versions

A session is what a program can make of a handler of some version by calling its methods.  The
lemmas say what holds in every session.
-/
namespace Ks

open Cmd

/-- The handler of a version, as `returnClassForVersion(version)()` makes it
(`version.py:291-321`, `base.py:447-494`). -/
def newHandler (v : Nat) : Handler CState Ns := Handler.build (commandMap v) none none

/-- The handlers of version `v` after any number of lines, `resetCommand` and `maskAllExcept`. -/
inductive Session (v : Nat) : Handler CState Ns → Prop
  | new : Session v (newHandler v)
  | dispatch {h} (lineno : Nat) (args : List Str) (line : Str) : Session v h → Session v (h.dispatch lineno args line).1
  | reset {h} (n : Str) : Session v h → Session v (h.reset n).1
  | mask {h} (lst : List Str) : Session v h → Session v (h.maskAllExcept lst)

/-- The versions for which there is a handler. -/
def Supported (v : Nat) : Prop := v ∈ commandMaps.map (·.1)

instance (v : Nat) : Decidable (Supported v) := by unfold Supported; infer_instance

theorem supported_mapOk {v : Nat} (hv : Supported v) : MapOk v (commandMap v) := by
  obtain ⟨m, hm⟩ := lookup_isSome_of_key (l := commandMaps) hv
  have : (v, m) ∈ commandMaps := by
    obtain ⟨l1, l2, hl, _⟩ := List.lookup_eq_some_iff.1 hm
    simp [hl]
  have hc : commandMap v = m := by simp [commandMap, hm]
  rw [hc]
  exact commandMaps_ok _ this

theorem inj_of_nodup_map {α β : Type} {f : α → β} {l : List α} (h : (l.map f).Nodup) {a b : α} (ha : a ∈ l) (hb : b ∈ l) (e : f a = f b) : a = b := by
  induction l with
  | nil => simp at ha
  | cons x t ih =>
    rw [List.map_cons, List.nodup_cons] at h
    rcases List.mem_cons.1 ha with ha | ha <;> rcases List.mem_cons.1 hb with hb | hb
    · rw [ha, hb]
    · exact absurd (List.mem_map.2 ⟨b, hb, by rw [← e, ha]⟩) h.1
    · exact absurd (List.mem_map.2 ⟨a, ha, by rw [e, hb]⟩) h.1
    · exact ih h.2 ha hb

/-- In the map of a version a class is known by its name. -/
theorem Cmd.MapOk.cls_eq {v : Nat} {m : List (Str × Command)} (hm : MapOk v m) {x y : Str × Command} (hx : x ∈ m) (hy : y ∈ m)
    (h : x.2.name = y.2.name) : x.2 = y.2 := by
  obtain ⟨cs, names, attrs, h1, _, hn, _, hc⟩ := hm.classes
  rw [← h1] at hn
  exact inj_of_nodup_map hn (hc x hx) (hc y hy) h

/-- ... and by its attribute of the handler, except for `upgrade`. -/
theorem Cmd.MapOk.attr_inj {v : Nat} {m : List (Str × Command)} (hm : MapOk v m) {x y : Str × Command} (hx : x ∈ m) (hy : y ∈ m)
    (h : attrName x.2.name = attrName y.2.name) (hu : attrName x.2.name ≠ c!"upgrade") : x.2 = y.2 := by
  obtain ⟨cs, names, attrs, h1, h2, hn, ha, hc⟩ := hm.classes
  subst h1
  subst h2
  rw [List.map_map, List.filter_map] at ha
  refine inj_of_nodup_map ha ?_ ?_ h
  · rw [List.mem_filter]
    exact ⟨hc x hx, by simpa using hu⟩
  · rw [List.mem_filter]
    exact ⟨hc y hy, by simpa [← h] using hu⟩

/-- What holds of a handler made from the map `m` at any time. -/
structure SessionInv (v : Nat) (m : List (Str × Command)) (h : Handler CState Ns) : Prop where
  reach : h.Reachable
  /-- the attributes of the objects are as their classes keep them -/
  objs : ∀ (r : Nat) (o : Obj CState Ns), h.heap[r]? = some o → (∃ n, (n, o.cls) ∈ m) ∧ ∀ I E, Command.Ok o.cls I E → I o.inst.attrs.attrs
  /-- a name is served by an object of its class -/
  served : ∀ (n : Str) (r : Nat), h.Serves n r → ∃ o : Obj CState Ns, h.heap[r]? = some o ∧ (n, o.cls) ∈ m
  /-- names are not lost -/
  names : ∀ n, h.commands.lookup n = none ↔ m.lookup n = none
  /-- attributes are not lost -/
  attrs : ∀ x ∈ m, ∃ r, h.attrs.lookup (attrName x.2.name) = some r

theorem reachable_registerAll {σ δ : Type} {h : Handler σ δ} (hr : h.Reachable) (m : List (Str × CmdClass σ δ)) : (h.registerAll m).Reachable := by
  induction m generalizing h with
  | nil => exact hr
  | cons x t ih => exact ih (hr.register x.1 x.2)

/-- Registering keeps the attributes, and every class registered has one. -/
theorem registerAll_attrs {σ δ : Type} (m : List (Str × CmdClass σ δ)) (h : Handler σ δ)
    (hc : ∀ n r, h.commands.lookup n = some (some r) → ∃ x, h.attrs.lookup (attrName (h.className r)) = some x) (w : h.Wf) :
    (∀ a x, h.attrs.lookup a = some x → ∃ y, (h.registerAll m).attrs.lookup a = some y) ∧
    ∀ x ∈ m, ∃ y, (h.registerAll m).attrs.lookup (attrName x.2.name) = some y := by
  induction m generalizing h with
  | nil => exact ⟨fun a x hx => ⟨x, hx⟩, fun x hx => absurd hx (by simp)⟩
  | cons p t ih =>
    obtain ⟨n, c⟩ := p
    rw [Handler.registerAll]
    have key : (∀ a x, h.attrs.lookup a = some x → ∃ y, (h.register n c).attrs.lookup a = some y) ∧
        (∃ y, (h.register n c).attrs.lookup (attrName c.name) = some y) ∧
        (∀ n' r, (h.register n c).commands.lookup n' = some (some r) → ∃ x, (h.register n c).attrs.lookup (attrName ((h.register n c).className r)) = some x) ∧
        (h.register n c).Wf := by
      unfold Handler.register
      cases hf : h.findClass c.name h.commands with
      | some r =>
        obtain ⟨⟨m', hm'⟩, hn'⟩ := findClass_some hf
        have hl := (mem_iff_lookup w.names).1 hm'
        refine ⟨fun a x hx => ⟨x, hx⟩, ?_, ?_, wf_setName w n (w.cmds _ _ hl)⟩
        · obtain ⟨x, hx⟩ := hc _ _ hl
          rw [hn'] at hx
          exact ⟨x, hx⟩
        · intro n' r' hr'
          simp only [lookup_assocSet] at hr'
          by_cases hnn : n' = n
          · rw [if_pos hnn] at hr'; cases hr'
            exact hc _ _ hl
          · rw [if_neg hnn] at hr'
            exact hc _ _ hr'
      | none =>
        have wc := create_wf w c
        have hat : ∀ a, (h.create c).1.attrs.lookup a = if a = attrName c.name then some h.heap.length else h.attrs.lookup a := by
          intro a; rw [create_attrs, lookup_assocSet]
        simp only
        refine ⟨fun a x hx => ?_, ⟨h.heap.length, ?_⟩, ?_, ?_⟩
        · show ∃ y, (h.create c).1.attrs.lookup a = some y
          rw [hat]
          by_cases ha : a = attrName c.name
          · exact ⟨_, if_pos ha⟩
          · exact ⟨x, by rw [if_neg ha]; exact hx⟩
        · show (h.create c).1.attrs.lookup _ = _
          rw [hat, if_pos rfl]
        · intro n' r' hr'
          show ∃ x, (h.create c).1.attrs.lookup (attrName ((h.create c).1.className r')) = some x
          have hr'' : (assocSet n (some h.heap.length) (h.create c).1.commands).lookup n' = some (some r') := hr'
          rw [lookup_assocSet, create_commands] at hr''
          by_cases hnn : n' = n
          · rw [if_pos hnn] at hr''; cases hr''
            rw [className_created, hat, if_pos rfl]
            exact ⟨_, rfl⟩
          · rw [if_neg hnn] at hr''
            rw [className_create c (w.cmds _ _ hr''), hat]
            obtain ⟨x, hx⟩ := hc _ _ hr''
            by_cases ha : attrName (h.className r') = attrName c.name
            · exact ⟨_, if_pos ha⟩
            · exact ⟨x, by rw [if_neg ha]; exact hx⟩
        · have := wf_setName wc n (r := h.heap.length) (by rw [create_heap]; simp)
          exact this
    obtain ⟨k1, k2, k3, k4⟩ := key
    obtain ⟨i1, i2⟩ := ih (h.register n c) k3 k4
    refine ⟨fun a x hx => ?_, fun x hx => ?_⟩
    · obtain ⟨y, hy⟩ := k1 a x hx
      exact i1 a y hy
    · rcases List.mem_cons.1 hx with rfl | hx
      · obtain ⟨y, hy⟩ := k2
        exact i1 _ y hy
      · exact i2 x hx

theorem build_none {σ δ : Type} (m : List (Str × CmdClass σ δ)) : Handler.build m none none = ({} : Handler σ δ).registerAll m := rfl

theorem mem_of_lookup' {β : Type} {n : Str} {c : β} {m : List (Str × β)} (h : m.lookup n = some c) : (n, c) ∈ m := by
  obtain ⟨l1, l2, hl, _⟩ := List.lookup_eq_some_iff.1 h
  simp [hl]

theorem sessionInv_new {v : Nat} {m : List (Str × Command)} (hm : MapOk v m) : SessionInv v m (Handler.build m none none) := by
  have b : Registered (Handler.build m none none) m := registerAll_registered hm.dict
  refine ⟨reachable_registerAll .new m, fun r o ho => ?_, fun n r hs => ?_, b.names, ?_⟩
  · obtain ⟨h1, n, h2, _⟩ := b.objs r o ho
    refine ⟨⟨n, mem_of_lookup' h2⟩, fun I E hI => ?_⟩
    rw [h1]
    exact hI.init
  · have hs' : (Handler.build m none none).commands.lookup n = some (some r) := hs
    cases hl : m.lookup n with
    | none => rw [(b.names n).2 hl] at hs'; cases hs'
    | some c =>
      obtain ⟨r', o, hr', ho, hname⟩ := b.served n c hl
      rw [hs'] at hr'; cases hr'
      obtain ⟨_, n', h2, _⟩ := b.objs r o ho
      have := hm.cls_eq (mem_of_lookup' h2) (mem_of_lookup' hl) hname
      exact ⟨o, ho, by rw [show o.cls = c from this]; exact mem_of_lookup' hl⟩
  · exact (registerAll_attrs m {} (fun n r h => by simp at h) registered_nil.wf).2

/-- The attributes of a command object after `parse` and after its result has been put into the data
list (`base.py:424-427`). -/
def CmdClass.stored {σ δ : Type} (c : CmdClass σ δ) (p : Inst σ × Except Exc (Option δ)) : Inst σ :=
  match p.2 with
  | .ok (some d) => if c.hasList p.1 then c.addData d p.1 else p.1
  | _ => p.1

/-- What a call of a command gives (`base.py:397-429`), in terms of the attributes of its object. -/
theorem dispatch_eq {σ δ : Type} {h : Handler σ δ} {n : Str} {r : Nat} {o : Obj σ δ} (hs : h.Serves n r) (ho : h.heap[r]? = some o)
    (lineno : Nat) (args : List Str) (line : Str) :
    h.dispatch lineno (n :: args) line =
      let i := o.inst.noted n line lineno
      let p := o.cls.parse (h.setInst r o i).seenAttr args i
      (h.setInst r o (o.cls.stored p), match p.2 with | .error e => some e | .ok _ => none) := by
  rw [Handler.dispatch]
  rw [show h.commands.lookup n = some (some r) from hs]
  simp only [ho]
  show (match o.cls.parse (h.setInst r o (o.inst.noted n line lineno)).seenAttr args (o.inst.noted n line lineno) with
    | (i, .error e) => _
    | (i, .ok none) => _
    | (i, .ok (some d)) => _ : Res (Handler σ δ)) = _
  split <;> (rename_i hp; simp only [hp, setInst_setInst, CmdClass.stored])

theorem seenAttr_setInst {σ δ : Type} {h : Handler σ δ} {r : Nat} {o : Obj σ δ} (ho : h.heap[r]? = some o) (i : Inst σ) (a : Str) :
    (h.setInst r o i).seenAttr a = if h.attrs.lookup a = some r then some i.seen else h.seenAttr a := by
  have hr : r < h.heap.length := (List.getElem?_eq_some_iff.1 ho).1
  unfold Handler.seenAttr Handler.setInst
  simp only
  cases ha : h.attrs.lookup a with
  | none => simp
  | some x =>
    simp only [Option.some.injEq]
    by_cases hx : x = r
    · subst hx
      simp [List.getElem?_set_self hr]
    · rw [if_neg hx, List.getElem?_set_ne (fun e => hx e.symm)]

theorem SessionInv.storage {v : Nat} {m : List (Str × Command)} {h : Handler CState Ns} (hm : MapOk v m) (inv : SessionInv v m h) :
    HasStorage h.seenAttr := by
  intro a ha
  obtain ⟨x, hx, rfl⟩ := List.mem_map.1 (hm.storage a ha)
  obtain ⟨r, hr⟩ := inv.attrs x hx
  have hlt := (reachable_wf inv.reach).attrs _ _ hr
  unfold Handler.seenAttr
  rw [hr]
  simp [List.getElem?_eq_getElem hlt]

theorem hasStorage_setInst {h : Handler CState Ns} {r : Nat} {o : Obj CState Ns} (ho : h.heap[r]? = some o) (i : Inst CState)
    (hs : HasStorage h.seenAttr) : HasStorage (h.setInst r o i).seenAttr := by
  intro a ha
  rw [seenAttr_setInst ho]
  split
  · rfl
  · exact hs a ha

/-- The object after a call. -/
theorem keep_added {c : Command} {I : Ns → Prop} {E : List Str → Nat → Exc → Prop} (hI : c.Ok I E) (p : Inst CState × Except Exc (Option Ns))
    (hk : I p.1.attrs.attrs) :
    I (c.stored p).attrs.attrs := by
  obtain ⟨i, r⟩ := p
  match r with
  | .error e => exact hk
  | .ok none => exact hk
  | .ok (some d) =>
    show I (if c.hasList i = true then c.addData d i else i).attrs.attrs
    cases c.hasList i with
    | true => exact (hI.add d i).symm ▸ hk
    | false => exact hk

theorem sessionInv_dispatch {v : Nat} {m : List (Str × Command)} {h : Handler CState Ns} (hm : MapOk v m) (inv : SessionInv v m h)
    (lineno : Nat) (args : List Str) (line : Str) : SessionInv v m (h.dispatch lineno args line).1 := by
  have hsh := dispatch_shape h lineno args line
  refine ⟨inv.reach.dispatch lineno args line, ?_, ?_, ?_, ?_⟩
  · match args with
    | [] => exact inv.objs
    | n :: args =>
      cases hl : h.commands.lookup n with
      | none => rw [C48_unknown h lineno n args line hl]; exact inv.objs
      | some x =>
        cases x with
        | none => rw [C48_masked h lineno n args line hl]; exact inv.objs
        | some r =>
          obtain ⟨o, ho, hmem⟩ := inv.served n r hl
          have hr : r < h.heap.length := (List.getElem?_eq_some_iff.1 ho).1
          rw [dispatch_eq hl ho]
          intro r' o' ho'
          by_cases hrr : r' = r
          · subst hrr
            simp only [Handler.setInst, List.getElem?_set_self hr, Option.some.injEq] at ho'
            subst ho'
            refine ⟨⟨n, hmem⟩, fun I E hI => ?_⟩
            replace hI : Command.Ok o.cls I E := hI
            have hst := hasStorage_setInst ho (o.inst.noted n line lineno) (inv.storage hm)
            have hk := hI.keep _ args (o.inst.noted n line lineno) hst ((inv.objs r' o ho).2 I E hI)
            exact keep_added hI _ hk
          · simp only [Handler.setInst] at ho'
            rw [List.getElem?_set_ne (fun e => hrr e.symm)] at ho'
            exact inv.objs r' o' ho'
  · intro n r hs
    have hs' : h.Serves n r := by unfold Handler.Serves at hs ⊢; rw [← hsh.commands]; exact hs
    obtain ⟨o, ho, hmem⟩ := inv.served n r hs'
    have hr : r < h.heap.length := (List.getElem?_eq_some_iff.1 ho).1
    have hc := hsh.cls r
    rw [ho] at hc
    cases hx : (h.dispatch lineno args line).1.heap[r]? with
    | none => rw [hx] at hc; simp at hc
    | some o' =>
      rw [hx] at hc
      simp only [Option.map_some, Option.some.injEq] at hc
      exact ⟨o', rfl, by rw [hc]; exact hmem⟩
  · intro n; rw [hsh.commands]; exact inv.names n
  · intro x hx; rw [hsh.attrs]; exact inv.attrs x hx

theorem sessionInv_reset {v : Nat} {m : List (Str × Command)} {h : Handler CState Ns} (inv : SessionInv v m h)
    (n : Str) : SessionInv v m (h.reset n).1 := by
  have hreach := inv.reach.reset n
  cases hl : h.commands.lookup n with
  | none => rw [C47_unknown h n hl]; exact inv
  | some x =>
  cases x with
  | none => rw [show h.reset n = (h, some .attribute) by simp [Handler.reset, hl]]; exact inv
  | some r =>
  obtain ⟨o, ho, hmem⟩ := inv.served n r hl
  rw [reset_eq hl ho] at hreach ⊢
  refine ⟨hreach, ?_, ?_, ?_, ?_⟩
  all_goals simp only [create_heap, create_attrs, Handler.Serves]
  · intro r' o' ho'
    by_cases hr' : r' < h.heap.length
    · rw [List.getElem?_append_left hr'] at ho'; exact inv.objs r' o' ho'
    · rw [List.getElem?_append_right (Nat.le_of_not_lt hr')] at ho'
      obtain ⟨_, he⟩ : r' - h.heap.length = 0 ∧ o.cls.new = o' := by
        cases hd : r' - h.heap.length with
        | zero => rw [hd] at ho'; exact ⟨rfl, by simpa using ho'⟩
        | succ k => rw [hd] at ho'; simp at ho'
      subst he
      exact ⟨⟨n, hmem⟩, fun I E hI => hI.init⟩
  · intro n' r' hs'
    rw [lookup_assocSet] at hs'
    by_cases hnn : n' = n
    · rw [if_pos hnn] at hs'
      cases hs'
      subst hnn
      exact ⟨o.cls.new, by simp, hmem⟩
    · rw [if_neg hnn] at hs'
      obtain ⟨o', ho', hmem'⟩ := inv.served n' r' hs'
      have hr : r' < h.heap.length := (List.getElem?_eq_some_iff.1 ho').1
      exact ⟨o', by rw [List.getElem?_append_left hr]; exact ho', hmem'⟩
  · intro n'
    rw [lookup_assocSet]
    by_cases hnn : n' = n
    · subst hnn
      have := inv.names n'
      rw [hl] at this
      simp only [if_true]
      exact ⟨fun h => by simp at h, fun h => absurd (this.2 h) (by simp)⟩
    · rw [if_neg hnn]; exact inv.names n'
  · intro x hx
    rw [lookup_assocSet]
    obtain ⟨y, hy⟩ := inv.attrs x hx
    by_cases ha : attrName x.2.name = attrName o.cls.name
    · exact ⟨_, if_pos ha⟩
    · exact ⟨y, by rw [if_neg ha]; exact hy⟩

theorem sessionInv_mask {v : Nat} {m : List (Str × Command)} {h : Handler CState Ns} (inv : SessionInv v m h)
    (lst : List Str) : SessionInv v m (h.maskAllExcept lst) := by
  refine ⟨inv.reach.mask lst, inv.objs, ?_, ?_, inv.attrs⟩
  · intro n r hs
    unfold Handler.Serves at hs
    rw [mask_lookup] at hs
    by_cases hn : n ∈ lst
    · rw [if_pos hn] at hs; exact inv.served n r hs
    · rw [if_neg hn] at hs
      cases hl : h.commands.lookup n with
      | none => rw [hl] at hs; simp at hs
      | some x => rw [hl] at hs; simp at hs
  · intro n
    rw [mask_lookup, ← inv.names n]
    by_cases hn : n ∈ lst
    · rw [if_pos hn]
    · rw [if_neg hn]; cases h.commands.lookup n <;> simp

theorem session_inv {v : Nat} (hv : Supported v) {h : Handler CState Ns} (s : Session v h) : SessionInv v (commandMap v) h := by
  have hm := supported_mapOk hv
  induction s with
  | new => exact sessionInv_new hm
  | dispatch lineno args line _ ih => exact sessionInv_dispatch hm ih lineno args line
  | reset n _ ih => exact sessionInv_reset ih n
  | mask lst _ ih => exact sessionInv_mask ih lst

end Ks
