import Verif.Commands.Stages
import Verif.Props.ListProps
/-!
# C59: deprecated commands are ignored, removed commands are refused
-/
namespace Ks

open Cmd

/-! ## Specification

`Deprecated`, `Removed` and their tables are in `Commands/StageLogic.lean`. -/

/-- The warnings `handler.commands[n]` has given. -/
def warningsOf (h : Handler CState Ns) (n : Str) : List Warn :=
  match h.commands.lookup n with
  | some (some r) => ((h.heap[r]?).map fun o => o.inst.attrs.warned).getD []
  | _ => []

/-- The Fedora versions, in order. -/
def fedoras : List Nat :=
  [Version.FC3, Version.FC4, Version.FC5, Version.FC6, Version.F7, Version.F8, Version.F9, Version.F10, Version.F11, Version.F12, Version.F13, Version.F14,
    Version.F15, Version.F16, Version.F17, Version.F18, Version.F19, Version.F20, Version.F21, Version.F22, Version.F23, Version.F24, Version.F25,
    Version.F26, Version.F27, Version.F28, Version.F29, Version.F30, Version.F31, Version.F32, Version.F33, Version.F34]

/-- `n` is a command of version `v`. -/
def Known (v : Nat) (n : Str) : Prop := ∃ c, (n, c) ∈ commandMap v

/-- The line is for a command that is deprecated in version `v`. -/
def isDeprecatedLine (v : Nat) (l : Nat × List Str × Str) : Bool :=
  match l.2.1 with
  | [] => false
  | n :: _ => deprecatedIn.any fun p => p.1 == v && p.2.contains n

theorem isDeprecatedLine_iff {v k : Nat} {n : Str} {args : List Str} {line : Str} : isDeprecatedLine v (k, n :: args, line) = true ↔ Deprecated v n := by
  unfold isDeprecatedLine Deprecated
  simp only [List.any_eq_true, Bool.and_eq_true, beq_iff_eq, List.contains_iff_mem]
  constructor
  · rintro ⟨p, hp, rfl, hn⟩; exact ⟨p.2, hp, hn⟩
  · rintro ⟨l, hl, hn⟩; exact ⟨(v, l), hl, rfl, hn⟩

/-! ## One line -/

theorem deprecated_class {v : Nat} (hv : Supported v) {n : Str} (hd : Deprecated v n) {c : Command} (hc : (n, c) ∈ commandMap v) : Command.IsDeprecated c := by
  obtain ⟨l, hl, hn⟩ := hd
  obtain ⟨c', hc', hi⟩ := deprecated_table _ hl n hn
  have h1 := (mem_iff_lookup (supported_mapOk hv).dict).1 hc
  have h2 := (mem_iff_lookup (supported_mapOk hv).dict).1 hc'
  rw [h1] at h2; cases h2; exact hi

theorem removed_class {v : Nat} (hv : Supported v) {n : Str} (hd : Removed v n) {c : Command} (hc : (n, c) ∈ commandMap v) : Command.IsRemoved c := by
  obtain ⟨l, hl, hn⟩ := hd
  obtain ⟨c', hc', hi⟩ := removed_table _ hl n hn
  have h1 := (mem_iff_lookup (supported_mapOk hv).dict).1 hc
  have h2 := (mem_iff_lookup (supported_mapOk hv).dict).1 hc'
  rw [h1] at h2; cases h2; exact hi

/-- The text of the handler, when an object changes that has no text. -/
theorem str_setInst {h : Handler CState Ns} {r : Nat} {o : Obj CState Ns} (ho : h.heap[r]? = some o) (hs : ∀ i, o.cls.str i = []) (i : Inst CState) :
    (h.setInst r o i).str = h.str := by
  have hr : r < h.heap.length := (List.getElem?_eq_some_iff.1 ho).1
  unfold Handler.str Handler.setInst
  simp only
  congr 1
  refine List.map_congr_left fun p _ => ?_
  congr 1
  refine List.map_congr_left fun x _ => ?_
  by_cases hx : x = r
  · subst hx
    simp only [List.getElem?_set_self hr, ho, hs]
  · rw [List.getElem?_set_ne (fun e => hx e.symm)]

/-- C59: a line for a deprecated command is accepted, whatever its arguments; it only gives a warning:
the text of the handler, and all data lists, stay as they are. -/
theorem C59_deprecated {v : Nat} (hv : Supported v) {h : Handler CState Ns} (s : Session v h) {n : Str} (hd : Deprecated v n)
    (hm : h.commands.lookup n ≠ some none) (l : Nat) (args : List Str) (line : Str) :
    (h.dispatch l (n :: args) line).2 = none ∧
    (h.dispatch l (n :: args) line).1.str = h.str ∧
    (∀ m, dataOf (h.dispatch l (n :: args) line).1 m = dataOf h m) ∧
    warningsOf (h.dispatch l (n :: args) line).1 n = warningsOf h n ++ [.deprecation (c!"Ignoring deprecated command " ++ n)] := by
  have inv := session_inv hv s
  match hlk : h.commands.lookup n with
  | none =>
    obtain ⟨l, hl, hn⟩ := hd
    obtain ⟨c, hc, _⟩ := deprecated_table _ hl n hn
    have := (mem_iff_lookup (supported_mapOk hv).dict).1 hc
    rw [(inv.names n).1 hlk] at this; cases this
  | some none => exact absurd hlk hm
  | some (some r) =>
    obtain ⟨o, ho, hmem⟩ := inv.served n r hlk
    obtain ⟨nm, init, hcls⟩ := deprecated_class hv hd hmem
    have hd := dispatch_eq hlk ho l args line
    have hr : r < h.heap.length := (List.getElem?_eq_some_iff.1 ho).1
    rw [hd]
    have hparse : o.cls.parse (h.setInst r o (o.inst.noted n line l)).seenAttr args (o.inst.noted n line l) =
        ({ o.inst.noted n line l with attrs := { o.inst.attrs with warned := o.inst.attrs.warned ++ [.deprecation (c!"Ignoring deprecated command " ++ n)] } }, .ok none) := by
      rw [hcls]; rfl
    simp only [hparse, CmdClass.stored]
    refine ⟨trivial, str_setInst ho (by rw [hcls]; exact fun _ => rfl) _, fun m => ?_, ?_⟩
    · by_cases hsm : h.Serves m r
      · rw [data_setInst hsm ho, data_serves hsm ho]
      · rw [data_setInst_ne hsm]
    · unfold warningsOf
      rw [show (h.setInst r o _).commands = h.commands from rfl, hlk]
      simp only [Handler.setInst, List.getElem?_set_self hr, ho, Option.map_some, Option.getD_some]

/-- C59: a line for a removed command is refused, whatever its arguments, and changes neither the text of
the handler nor a data list. -/
theorem C59_removed {v : Nat} (hv : Supported v) {h : Handler CState Ns} (s : Session v h) {n : Str} (hd : Removed v n)
    (hm : h.commands.lookup n ≠ some none) (l : Nat) (args : List Str) (line : Str) :
    (h.dispatch l (n :: args) line).2 = some (.parse (n ++ c!" has been removed.") (some (l : Int))) ∧
    (h.dispatch l (n :: args) line).1.str = h.str ∧
    (∀ m, dataOf (h.dispatch l (n :: args) line).1 m = dataOf h m) := by
  have inv := session_inv hv s
  match hlk : h.commands.lookup n with
  | none =>
    obtain ⟨l, hl, hn⟩ := hd
    obtain ⟨c, hc, _⟩ := removed_table _ hl n hn
    have := (mem_iff_lookup (supported_mapOk hv).dict).1 hc
    rw [(inv.names n).1 hlk] at this; cases this
  | some none => exact absurd hlk hm
  | some (some r) =>
    obtain ⟨o, ho, hmem⟩ := inv.served n r hlk
    obtain ⟨nm, init, hcls⟩ := removed_class hv hd hmem
    have hd := dispatch_eq hlk ho l args line
    rw [hd]
    have hparse : o.cls.parse (h.setInst r o (o.inst.noted n line l)).seenAttr args (o.inst.noted n line l) =
        (o.inst.noted n line l, .error (.parse (n ++ c!" has been removed.") (some (l : Int)))) := by
      rw [hcls]; rfl
    simp only [hparse, CmdClass.stored]
    refine ⟨trivial, str_setInst ho (by rw [hcls]; exact fun _ => rfl) _, fun m => ?_⟩
    by_cases hsm : h.Serves m r
    · rw [data_setInst hsm ho, data_serves hsm ho]; rfl
    · rw [data_setInst_ne hsm]

/-! ## The life of a command -/

/-- C59: from one Fedora version to the next, a deprecated command stays deprecated or is removed, a
removed command is unknown, and no command becomes unknown that was not removed before. -/
theorem C59_lifecycle : ∀ p ∈ fedoras.zip fedoras.tail, ∀ n,
    (Deprecated p.1 n → Deprecated p.2 n ∨ Removed p.2 n) ∧ (Removed p.1 n → ¬ Known p.2 n) ∧ (Known p.1 n → Known p.2 n ∨ Removed p.1 n) := by
  have h1 : ∀ p ∈ fedoras.zip fedoras.tail, ∀ q ∈ deprecatedIn, q.1 = p.1 → ∀ n ∈ q.2,
      (∃ q' ∈ deprecatedIn, q'.1 = p.2 ∧ n ∈ q'.2) ∨ ∃ q' ∈ removedIn, q'.1 = p.2 ∧ n ∈ q'.2 := by decide +kernel
  have h2 : ∀ p ∈ fedoras.zip fedoras.tail, ∀ q ∈ removedIn, q.1 = p.1 → ∀ n ∈ q.2, n ∉ (commandMap p.2).map (·.1) := by decide +kernel
  have h3 : ∀ p ∈ fedoras.zip fedoras.tail, ∀ n ∈ (commandMap p.1).map (·.1), n ∈ (commandMap p.2).map (·.1) ∨ ∃ q ∈ removedIn, q.1 = p.1 ∧ n ∈ q.2 := by
    decide +kernel
  intro p hp n
  refine ⟨?_, ?_, ?_⟩
  · rintro ⟨l, hl, hn⟩
    rcases h1 p hp _ hl rfl n hn with ⟨⟨_, l'⟩, ha, rfl, hb⟩ | ⟨⟨_, l'⟩, ha, rfl, hb⟩
    · exact .inl ⟨l', ha, hb⟩
    · exact .inr ⟨l', ha, hb⟩
  · rintro ⟨l, hl, hn⟩ ⟨c, hc⟩
    exact h2 p hp _ hl rfl n hn (List.mem_map.2 ⟨_, hc, rfl⟩)
  · rintro ⟨c, hc⟩
    rcases h3 p hp n (List.mem_map.2 ⟨_, hc, rfl⟩) with h | ⟨⟨_, l'⟩, ha, rfl, hb⟩
    · obtain ⟨x, hx, rfl⟩ := List.mem_map.1 h
      exact .inl ⟨x.2, hx⟩
    · exact .inr ⟨l', ha, hb⟩

/-! ## Files without the deprecated lines -/

/-- Two handlers that differ only in objects of deprecated commands. -/
structure SameBut (h h' : Handler CState Ns) : Prop where
  shape : SameShape h h'
  objs : ∀ (r : Nat) (o : Obj CState Ns), h.heap[r]? = some o → ¬ Command.IsDeprecated o.cls → h'.heap[r]? = some o
  data : ∀ n, dataOf h' n = dataOf h n

theorem SameBut.refl (h : Handler CState Ns) : SameBut h h := ⟨.refl h, fun _ _ ho _ => ho, fun _ => rfl⟩

theorem SameBut.cls {h h' : Handler CState Ns} (hb : SameBut h h') {r : Nat} {o o' : Obj CState Ns} (ho : h.heap[r]? = some o)
    (ho' : h'.heap[r]? = some o') : o'.cls = o.cls := by
  have h1 : (h.heap.map (·.cls))[r]? = some o.cls := by rw [List.getElem?_map, ho]; rfl
  have h2 : (h'.heap.map (·.cls))[r]? = some o'.cls := by rw [List.getElem?_map, ho']; rfl
  rw [hb.shape.classes, h1] at h2
  exact (Option.some.inj h2).symm

theorem SameBut.obj {h h' : Handler CState Ns} (hb : SameBut h h') {r : Nat} {o : Obj CState Ns} (ho : h.heap[r]? = some o) :
    ∃ o', h'.heap[r]? = some o' ∧ o'.cls = o.cls := by
  have hlen : h'.heap.length = h.heap.length := by
    have := congrArg List.length hb.shape.classes
    simpa using this
  have hr : r < h'.heap.length := hlen ▸ (List.getElem?_eq_some_iff.1 ho).1
  exact ⟨_, List.getElem?_eq_getElem hr, hb.cls ho (List.getElem?_eq_getElem hr)⟩

/-- Deprecated commands are none of those that others look at. -/
theorem deprecated_not_storage {v : Nat} (hv : Supported v) {n : Str} {c : Command} (hc : (n, c) ∈ commandMap v) (hs : attrName c.name ∈ storageAttrs.map (·.2)) :
    ¬ Command.IsDeprecated c := by
  rintro ⟨nm, init, rfl⟩
  have h1 : (commandMaps.all fun m => m.2.all fun x => !((storageAttrs.map (·.2)).contains (attrName x.2.name)) || x.2.prio.isSome) = true := by decide +kernel
  have := List.all_eq_true.1 (List.all_eq_true.1 h1 _ (supported_mem hv)) _ hc
  rw [show (storageAttrs.map (·.2)).contains (attrName (deprecatedCmd nm init).name) = true from List.contains_iff_mem.2 hs] at this
  cases this

theorem SameBut.str {h h' : Handler CState Ns} (hb : SameBut h h') : h'.str = h.str := by
  unfold Handler.str
  rw [hb.shape.writeOrder]
  congr 1
  refine List.map_congr_left fun p _ => ?_
  congr 1
  refine List.map_congr_left fun x _ => ?_
  cases ho : h.heap[x]? with
  | none =>
    have hlen : h'.heap.length = h.heap.length := by
      have := congrArg List.length hb.shape.classes
      simpa using this
    have : h'.heap[x]? = none := by rw [List.getElem?_eq_none_iff] at ho ⊢; omega
    rw [this]
  | some o =>
    obtain ⟨o', ho', hc⟩ := hb.obj ho
    rw [ho']
    by_cases hd : Command.IsDeprecated o.cls
    · simp only
      rw [hc]
      obtain ⟨nm, init, hcls⟩ := hd
      rw [hcls]; rfl
    · have := hb.objs x o ho hd
      rw [ho'] at this; cases this; rfl

theorem data_ignored {h : Handler CState Ns} {r : Nat} {o : Obj CState Ns} {n : Str} (hs : h.Serves n r)
    (ho : h.heap[r]? = some o) (hd : Command.IsDeprecated o.cls) (l : Nat) (args : List Str) (line : Str) (m : Str) :
    dataOf (h.dispatch l (n :: args) line).1 m = dataOf h m := by
  obtain ⟨nm, init, hc⟩ := hd
  rw [dispatch_eq hs ho l args line, hc]
  by_cases hsm : h.Serves m r
  · rw [data_serves hsm ho]
    simp only
    rw [data_setInst hsm ho]
    rfl
  · rw [data_setInst_ne hsm]

/-- A line does the same in both. -/
theorem sameBut_dispatch {v : Nat} (hv : Supported v) {h h' : Handler CState Ns} (s : Session v h) (hb : SameBut h h') (l : Nat)
    (args : List Str) (line : Str) : SameBut (h.dispatch l args line).1 (h'.dispatch l args line).1 ∧
      (h'.dispatch l args line).2 = (h.dispatch l args line).2 := by
  have inv := session_inv hv s
  match args with
  | [] => exact ⟨hb, rfl⟩
  | n :: args =>
    match hlk : h.commands.lookup n with
    | none =>
      rw [C48_unknown h l n args line hlk, C48_unknown h' l n args line (by rw [hb.shape.commands]; exact hlk)]
      exact ⟨hb, rfl⟩
    | some none =>
      rw [C48_masked h l n args line hlk, C48_masked h' l n args line (by rw [hb.shape.commands]; exact hlk)]
      exact ⟨hb, rfl⟩
    | some (some r) =>
      obtain ⟨o, ho, hmem⟩ := inv.served n r hlk
      obtain ⟨o', ho', hcls⟩ := hb.obj ho
      have hlk' : h'.Serves n r := by unfold Handler.Serves; rw [hb.shape.commands]; exact hlk
      have hsh := dispatch_shape h l (n :: args) line
      have hsh' := dispatch_shape h' l (n :: args) line
      have hshape : SameShape (h.dispatch l (n :: args) line).1 (h'.dispatch l (n :: args) line).1 :=
        ⟨by rw [hsh'.commands, hsh.commands, hb.shape.commands], by rw [hsh'.writeOrder, hsh.writeOrder, hb.shape.writeOrder],
          by rw [hsh'.attrs, hsh.attrs, hb.shape.attrs], by rw [hsh'.classes, hsh.classes, hb.shape.classes]⟩
      have hr : r < h.heap.length := (List.getElem?_eq_some_iff.1 ho).1
      have hr' : r < h'.heap.length := (List.getElem?_eq_some_iff.1 ho').1
      have hd := dispatch_eq hlk ho l args line
      have hd' := dispatch_eq hlk' ho' l args line
      simp only at hd hd'
      have hothers : ∀ i j, (⟨o.cls, i⟩ : Obj CState Ns) = ⟨o'.cls, j⟩ ∨ Command.IsDeprecated o.cls → ∀ (x : Nat) (y : Obj CState Ns), (h.setInst r o i).heap[x]? = some y →
          ¬ Command.IsDeprecated y.cls → (h'.setInst r o' j).heap[x]? = some y := by
        intro i j hij x y hy hyd
        by_cases hx : x = r
        · subst hx
          simp only [Handler.setInst, List.getElem?_set_self hr, Option.some.injEq] at hy
          subst hy
          simp only [Handler.setInst, List.getElem?_set_self hr', Option.some.injEq]
          rcases hij with hij | hij
          · exact hij.symm
          · exact absurd hij hyd
        · simp only [Handler.setInst, List.getElem?_set_ne (fun e => hx e.symm)] at hy ⊢
          exact hb.objs x y hy hyd
      by_cases hdep : Command.IsDeprecated o.cls
      · refine ⟨⟨hshape, ?_, ?_⟩, ?_⟩
        · rw [hd, hd']
          exact hothers _ _ (.inr hdep)
        · intro m
          rw [data_ignored hlk' ho' (by rw [hcls]; exact hdep), data_ignored hlk ho hdep, hb.data]
        · obtain ⟨nm, init, hc⟩ := hdep
          rw [hd, hd', hcls, hc]
          rfl
      · have := hb.objs r o ho hdep
        rw [ho'] at this; cases this
        have hlocal := session_local hv hmem
        have hseen : ∀ a ∈ looksAt (attrName o.cls.name), (h'.setInst r o (o.inst.noted n line l)).seenAttr a = (h.setInst r o (o.inst.noted n line l)).seenAttr a := by
          intro a ha
          rw [seenAttr_setInst ho, seenAttr_setInst ho', hb.shape.attrs]
          split
          · rfl
          · unfold Handler.seenAttr
            rw [hb.shape.attrs]
            cases hat : h.attrs.lookup a with
            | none => rfl
            | some x =>
              have hx := (reachable_wf inv.reach).attrs _ _ hat
              have hox : h.heap[x]? = some h.heap[x] := List.getElem?_eq_getElem hx
              obtain ⟨⟨n', hn'⟩, _⟩ := inv.objs x _ hox
              have hcl := session_attr_class hv s a x hat
              have hcx : h.className x = (h.heap[x]).cls.name := by simp [Handler.className, hox]
              rw [hcx] at hcl
              have := hb.objs x _ hox (deprecated_not_storage hv hn' (by rw [hcl]; exact (looksAt_storage ha).2))
              simp only [this, hox]
        have hp := hlocal _ _ hseen args (o.inst.noted n line l)
        refine ⟨⟨hshape, ?_, fun m => ?_⟩, ?_⟩
        · rw [hd, hd', hp]
          exact hothers _ _ (.inl rfl)
        · rw [hd, hd', hp]
          by_cases hsm : h.Serves m r
          · have hsm' : h'.Serves m r := by unfold Handler.Serves; rw [hb.shape.commands]; exact hsm
            rw [data_setInst hsm ho, data_setInst hsm' ho']
          · have hsm' : ¬ h'.Serves m r := by unfold Handler.Serves; rw [hb.shape.commands]; exact hsm
            rw [data_setInst_ne hsm, data_setInst_ne hsm', hb.data]
        · rw [hd, hd', hp]

theorem sameBut_deprecated {v : Nat} (hv : Supported v) {h h' : Handler CState Ns} (s : Session v h) (hb : SameBut h h') (l : Nat) {n : Str}
    (hn : Deprecated v n) (args : List Str) (line : Str) : SameBut (h.dispatch l (n :: args) line).1 h' := by
  have inv := session_inv hv s
  match hlk : h.commands.lookup n with
  | none => rw [C48_unknown h l n args line hlk]; exact hb
  | some none => rw [C48_masked h l n args line hlk]; exact hb
  | some (some r) =>
    obtain ⟨o, ho, hmem⟩ := inv.served n r hlk
    have hr : r < h.heap.length := (List.getElem?_eq_some_iff.1 ho).1
    have hsh := dispatch_shape h l (n :: args) line
    refine ⟨⟨by rw [hsh.commands, hb.shape.commands], by rw [hsh.writeOrder, hb.shape.writeOrder],
          by rw [hsh.attrs, hb.shape.attrs], by rw [hsh.classes, hb.shape.classes]⟩, ?_, fun m => ?_⟩
    on_goal 2 => rw [data_ignored hlk ho (deprecated_class hv hn hmem), hb.data]
    rw [dispatch_eq hlk ho l args line]
    intro x y hy hyd
    by_cases hx : x = r
    · subst hx
      simp only [Handler.setInst, List.getElem?_set_self hr, Option.some.injEq] at hy
      subst hy
      exact absurd (deprecated_class hv hn hmem) hyd
    · simp only [Handler.setInst, List.getElem?_set_ne (fun e => hx e.symm)] at hy
      exact hb.objs x y hy hyd

theorem sameBut_lines {v : Nat} (hv : Supported v) (ls : List (Nat × List Str × Str)) :
    SameBut (readLines v ls) (readLines v (ls.filter fun l => !isDeprecatedLine v l)) := by
  induction ls using snoc_ind with
  | nil => exact .refl _
  | snoc ls l ih =>
    rw [readLines_snoc, List.filter_append]
    have s := readLines_session v ls
    obtain ⟨k, args, line⟩ := l
    cases hdl : isDeprecatedLine v (k, args, line) with
    | false =>
      simp only [List.filter_cons, hdl, Bool.not_false, if_true, List.filter_nil]
      rw [readLines_snoc]
      exact (sameBut_dispatch hv s ih k args line).1
    | true =>
      simp only [List.filter_cons, hdl, Bool.not_true, List.filter_nil, Bool.false_eq_true, if_false, List.append_nil]
      match args with
      | [] => cases hdl
      | n :: args => exact sameBut_deprecated hv s ih k (isDeprecatedLine_iff.1 hdl) args line

/-- C59: the lines of deprecated commands can be left out: the text of the handler is the same, and so is
every data list. -/
theorem C59_left_out {v : Nat} (hv : Supported v) (ls : List (Nat × List Str × Str)) :
    (readLines v (ls.filter fun l => !isDeprecatedLine v l)).str = (readLines v ls).str ∧
    ∀ n, dataOf (readLines v (ls.filter fun l => !isDeprecatedLine v l)) n = dataOf (readLines v ls) n :=
  ⟨(sameBut_lines hv ls).str, (sameBut_lines hv ls).data⟩

/-- C59: and every other line is accepted or refused, with the same exception, as before. -/
theorem C59_left_out_accepted {v : Nat} (hv : Supported v) (ls : List (Nat × List Str × Str)) (l : Nat) (args : List Str) (line : Str) :
    ((readLines v (ls.filter fun l => !isDeprecatedLine v l)).dispatch l args line).2 = ((readLines v ls).dispatch l args line).2 :=
  (sameBut_dispatch hv (readLines_session v ls) (sameBut_lines hv ls) l args line).2

example : Deprecated Version.F28 c!"upgrade" ∧ Removed Version.F29 c!"upgrade" ∧ ¬ Known Version.F30 c!"upgrade" := by
  refine ⟨⟨_, List.mem_of_getElem? (i := 24) rfl, by decide⟩, ⟨_, List.mem_of_getElem? (i := 4) rfl, by decide⟩, ?_⟩
  rintro ⟨c, hc⟩
  have h : c!"upgrade" ∉ (commandMap Version.F30).map (·.1) := by decide +kernel
  exact h (List.mem_map.2 ⟨_, hc, rfl⟩)

/-- The same line in three versions. -/
example : ((readLines Version.F28 [(1, [c!"lang", c!"C"], [])]).dispatch 2 [c!"upgrade", c!"--root-device=sda1"] []).2 = none ∧
    ((readLines Version.F29 [(1, [c!"lang", c!"C"], [])]).dispatch 2 [c!"upgrade", c!"--root-device=sda1"] []).2 = some (.parse c!"upgrade has been removed." (some 2)) ∧
    ((readLines Version.F30 [(1, [c!"lang", c!"C"], [])]).dispatch 2 [c!"upgrade", c!"--root-device=sda1"] []).2 = some (.parse c!"Unknown command: upgrade" (some 2)) := by
  decide +kernel

example : [(1, [c!"upgrade"], []), (2, [c!"lang", c!"C"], [])].filter (fun l => !isDeprecatedLine Version.F28 l) = [(2, [c!"lang", c!"C"], [])] := by
  decide +kernel

end Ks
