import Verif.Commands.Lists
import Verif.Props.OrderProps
/-!
# C58: data lists hold one object per accepted line
-/
namespace Ks

open Cmd

/-! ## Specification -/

/-- `handler.commands[n].dataList()` -/
def dataOf (h : Handler CState Ns) (n : Str) : List Ns :=
  match h.commands.lookup n with
  | some (some r) => ((h.heap[r]?).map fun o => o.inst.attrs.data).getD []
  | _ => []

/-- In version `v`, `n` is a command with a data list. -/
def ListCommand (v : Nat) (n : Str) : Prop := ∃ c, (commandMap v).lookup n = some c ∧ c.hasList { attrs := {} } = true

instance (v : Nat) (n : Str) : Decidable (ListCommand v n) := by
  unfold ListCommand
  cases h : (commandMap v).lookup n with
  | none => exact .isFalse fun ⟨c, hc, _⟩ => by cases hc
  | some c =>
    cases hl : c.hasList { attrs := {} } with
    | false => exact .isFalse fun ⟨c', hc, h'⟩ => by cases hc; rw [hl] at h'; cases h'
    | true => exact .isTrue ⟨c, rfl, hl⟩

/-- Two names of one command. -/
def SameCommand (m n : Str) : Prop := m = n ∨ ∃ g ∈ aliases, m ∈ g ∧ n ∈ g

instance (m n : Str) : Decidable (SameCommand m n) := by unfold SameCommand; infer_instance

/-- Those of the lines, read one after the other, that raise no exception. -/
def accepted (h : Handler CState Ns) : List (Nat × List Str × Str) → List (Nat × List Str × Str)
  | [] => []
  | l :: t =>
    match (h.dispatch l.1 l.2.1 l.2.2).2 with
    | none => l :: accepted (h.dispatch l.1 l.2.1 l.2.2).1 t
    | some _ => accepted (h.dispatch l.1 l.2.1 l.2.2).1 t

/-- The first word of the line is a name of the command `n`. -/
def isLineOf (n : Str) (l : Nat × List Str × Str) : Bool :=
  match l.2.1 with
  | [] => false
  | m :: _ => decide (SameCommand n m)

/-! ## One line -/

theorem commandMaps_lists_one : commandMaps.all (fun m =>
    agree ((m.2.filter fun x => x.2.hasList { attrs := {} }).map fun x => (strCode (rep x.1), strCode x.2.name)) &&
    m.2.all fun x => x.2.hasList { attrs := {} } || !((m.2.filter fun x => x.2.hasList { attrs := {} }).map fun x => strCode (rep x.1)).contains (strCode (rep x.1))) = true := by decide +kernel

theorem rep_of_same {m n : Str} (h : SameCommand m n) : rep m = rep n := by
  rcases h with rfl | ⟨g, hg, h1, h2⟩
  · rfl
  · exact (show ∀ g ∈ aliases, ∀ m ∈ g, ∀ n ∈ g, rep m = rep n by decide +kernel) g hg m h1 n h2

/-- The names of a command with a data list have one class. -/
theorem list_class {v : Nat} (hv : Supported v) {m n : Str} {c d : Command} (h1 : (m, c) ∈ commandMap v) (h2 : (n, d) ∈ commandMap v)
    (hs : SameCommand m n) (hl : c.hasList { attrs := {} } = true) : c = d := by
  have h := List.all_eq_true.1 commandMaps_lists_one _ (supported_mem hv)
  rw [Bool.and_eq_true] at h
  have hr := rep_of_same hs
  have hd : d.hasList { attrs := {} } = true := by
    have := List.all_eq_true.1 h.2 _ h2
    rw [Bool.or_eq_true] at this
    refine this.resolve_right fun hx => ?_
    have hc : (((commandMap v).filter fun x => x.2.hasList { attrs := {} }).map fun x => strCode (rep x.1)).contains (strCode (rep n)) = true :=
      List.contains_iff_mem.2 (List.mem_map.2 ⟨(m, c), List.mem_filter.2 ⟨h1, hl⟩, by simp [hr]⟩)
    simp only [hc] at hx
    cases hx
  have := agree_spec h.1 (List.mem_map_of_mem (List.mem_filter.2 ⟨h1, hl⟩)) (List.mem_map_of_mem (List.mem_filter.2 ⟨h2, hd⟩)) (by simp [hr])
  exact (supported_mapOk hv).cls_eq h1 h2 (strCode_inj this)

theorem data_setInst {h : Handler CState Ns} {n : Str} {r : Nat} {o : Obj CState Ns} (hs : h.Serves n r) (ho : h.heap[r]? = some o) (i : Inst CState) :
    dataOf (h.setInst r o i) n = i.attrs.data := by
  have hr : r < h.heap.length := (List.getElem?_eq_some_iff.1 ho).1
  unfold dataOf
  rw [show (h.setInst r o i).commands = h.commands from rfl, show h.commands.lookup n = some (some r) from hs]
  simp only [Handler.setInst, List.getElem?_set_self hr, Option.map_some, Option.getD_some]

theorem data_setInst_ne {h : Handler CState Ns} {n : Str} {r : Nat} {o : Obj CState Ns} (hs : ¬ h.Serves n r) (i : Inst CState) :
    dataOf (h.setInst r o i) n = dataOf h n := by
  unfold dataOf
  rw [show (h.setInst r o i).commands = h.commands from rfl]
  match hl : h.commands.lookup n with
  | none => rfl
  | some none => rfl
  | some (some r') =>
    have hne : r ≠ r' := by rintro rfl; exact hs hl
    simp only [Handler.setInst, List.getElem?_set_ne hne]

theorem data_serves {h : Handler CState Ns} {n : Str} {r : Nat} {o : Obj CState Ns} (hs : h.Serves n r) (ho : h.heap[r]? = some o) :
    dataOf h n = o.inst.attrs.data := by
  unfold dataOf
  rw [show h.commands.lookup n = some (some r) from hs]
  simp only [ho, Option.map_some, Option.getD_some]

theorem session_lists {v : Nat} (hv : Supported v) {n : Str} {c : Command} (h : (n, c) ∈ commandMap v) : c.Lists :=
  commandMaps_lists _ (supported_mem hv) _ h

theorem commandMaps_multipath : commandMaps.all (fun m => m.2.all fun x =>
    !(Nat.beq (strCode x.2.name) (strCode c!"FC6_MultiPath")) || Nat.beq (strCode x.1) (strCode c!"multipath")) = true := by decide +kernel

theorem not_multipath {v : Nat} (hv : Supported v) {n : Str} {c : Command} (h : (n, c) ∈ commandMap v) (hn : n ≠ c!"multipath") :
    c.name ≠ c!"FC6_MultiPath" := by
  intro he
  have := List.all_eq_true.1 (List.all_eq_true.1 commandMaps_multipath _ (supported_mem hv)) _ h
  simp only [he] at this
  exact hn (strCode_inj (by simpa using this))

theorem accepted_value {v : Nat} (hv : Supported v) {h : Handler CState Ns} (s : Session v h) {n : Str} {c : Command} (hc : (commandMap v).lookup n = some c)
    (hli : c.hasList { attrs := {} } = true) (hn : n ≠ c!"multipath")
    (hm : h.commands.lookup n ≠ some none) {l : Nat} {args : List Str} {line : Str} (ok : (h.dispatch l (n :: args) line).2 = none) :
    ∃ d t i, dataOf (h.dispatch l (n :: args) line).1 n = dataOf h n ++ [d] ∧ d.getD c!"lineno" = .int l ∧ (c.parse t args i).2 = .ok (some d) := by
  have inv := session_inv hv s
  have hmap := supported_mapOk hv
  match hlk : h.commands.lookup n with
  | none => rw [(inv.names n).1 hlk] at hc; cases hc
  | some none => exact absurd hlk hm
  | some (some r) =>
    obtain ⟨o, ho, hmem⟩ := inv.served n r hlk
    have hoc : o.cls = c := by
      have := (mem_iff_lookup hmap.dict).1 hmem
      rw [hc] at this; cases this; rfl
    obtain ⟨I, hI⟩ := hmap.ok _ hmem
    have hL := session_lists hv hmem
    have hd := dispatch_eq hlk ho l args line
    simp only at hd
    have hst := hasStorage_setInst ho (o.inst.noted n line l) (inv.storage hmap)
    have hf := hI.frame (not_multipath hv hmem hn) _ args (o.inst.noted n line l) hst ((inv.objs r o ho).2 I _ hI)
    have hhl : ∀ i, o.cls.hasList i = true := fun i => by rw [hL.one i { attrs := {} }, hoc]; exact hli
    generalize hp : o.cls.parse (h.setInst r o (o.inst.noted n line l)).seenAttr args (o.inst.noted n line l) = p at hd hf
    rw [hd] at ok ⊢
    obtain ⟨j, x⟩ := p
    cases x with
    | error e => cases ok
    | ok x =>
      obtain ⟨d, rfl, hnum⟩ := hL.value _ args _ x (by rw [hp]) (hhl _)
      refine ⟨d, _, _, ?_, hnum (not_multipath hv hmem hn), by rw [← hoc, hp]⟩
      rw [data_setInst hlk ho, data_serves hlk ho]
      simp only [CmdClass.stored, hhl, if_true]
      rw [hL.add, if_pos (hhl _)]
      exact congrArg (· ++ [d]) hf.data

/-- C58: an accepted line of a command with a data list appends one object to the list, which carries
the number of the line. -/
theorem C58_accepted {v : Nat} (hv : Supported v) {h : Handler CState Ns} (s : Session v h) {n : Str} (hl : ListCommand v n) (hn : n ≠ c!"multipath")
    (hm : h.commands.lookup n ≠ some none) {l : Nat} {args : List Str} {line : Str} (ok : (h.dispatch l (n :: args) line).2 = none) :
    ∃ d, dataOf (h.dispatch l (n :: args) line).1 n = dataOf h n ++ [d] ∧ d.getD c!"lineno" = .int l := by
  obtain ⟨c, hc, hli⟩ := hl
  obtain ⟨d, _, _, h1, h2, _⟩ := accepted_value hv s hc hli hn hm ok
  exact ⟨d, h1, h2⟩

/-- C58: a line that raises an exception leaves the list as it was. -/
theorem C58_refused {v : Nat} (hv : Supported v) {h : Handler CState Ns} (s : Session v h) {n : Str} (hn : n ≠ c!"multipath")
    {l : Nat} {args : List Str} {line : Str} {e : Exc} (err : (h.dispatch l (n :: args) line).2 = some e) :
    dataOf (h.dispatch l (n :: args) line).1 n = dataOf h n := by
  have inv := session_inv hv s
  have hmap := supported_mapOk hv
  match hlk : h.commands.lookup n with
  | none => rw [C48_unknown h l n args line hlk]
  | some none => rw [C48_masked h l n args line hlk]
  | some (some r) =>
    obtain ⟨o, ho, hmem⟩ := inv.served n r hlk
    obtain ⟨I, hI⟩ := hmap.ok _ hmem
    have hd := dispatch_eq hlk ho l args line
    simp only at hd
    have hst := hasStorage_setInst ho (o.inst.noted n line l) (inv.storage hmap)
    have hf := hI.frame (not_multipath hv hmem hn) _ args (o.inst.noted n line l) hst ((inv.objs r o ho).2 I _ hI)
    generalize hp : o.cls.parse (h.setInst r o (o.inst.noted n line l)).seenAttr args (o.inst.noted n line l) = p at hd hf
    rw [hd] at err ⊢
    obtain ⟨j, x⟩ := p
    cases x with
    | ok x => cases err
    | error e =>
      rw [data_setInst hlk ho, data_serves hlk ho]
      exact hf.data

/-- C58: a line does not touch the lists of other commands. -/
theorem C58_other {v : Nat} (hv : Supported v) {h : Handler CState Ns} (s : Session v h) {m n : Str} (hne : ¬ SameCommand n m)
    (l : Nat) (args : List Str) (line : Str) : dataOf (h.dispatch l (m :: args) line).1 n = dataOf h n := by
  have inv := session_inv hv s
  match hlk : h.commands.lookup m with
  | none => rw [C48_unknown h l m args line hlk]
  | some none => rw [C48_masked h l m args line hlk]
  | some (some r) =>
    obtain ⟨o, ho, hmem⟩ := inv.served m r hlk
    have hd := dispatch_eq hlk ho l args line
    simp only at hd
    rw [hd]
    refine data_setInst_ne (fun hs => hne ?_) _
    obtain ⟨o', ho', hmem'⟩ := inv.served n r hs
    rw [ho] at ho'; cases ho'
    exact same_class hv hmem' hmem rfl

/-! ## Any number of lines -/

theorem lines_same {v : Nat} (hv : Supported v) (ls : List (Nat × List Str × Str)) {m n : Str} (hl : ListCommand v n) (hs : SameCommand n m)
    {r : Nat} (hm : (readLines v ls).Serves m r) : (readLines v ls).Serves n r := by
  obtain ⟨c, hc, hli⟩ := hl
  have hmap := supported_mapOk hv
  have hcm := mem_of_lookup' hc
  obtain ⟨o, ho, hmem⟩ := (session_inv hv (readLines_session v ls)).served m r hm
  have hcc := list_class hv hcm hmem hs hli
  obtain ⟨r', o', hs', ho', hoc', _⟩ := lines_served hv ls hcm
  have hd := (registerAll_registered hmap.dict).distinct
  have hcn : ∀ x, (readLines v ls).className x = (newHandler v).className x := fun x => (lines_inv hv ls).shape.className x
  have hlen : (readLines v ls).heap.length = (newHandler v).heap.length := by
    have := congrArg List.length (lines_inv hv ls).shape.classes
    simpa using this
  have : r = r' := by
    refine hd r r' ?_ ?_ ?_
    · exact hlen ▸ (List.getElem?_eq_some_iff.1 ho).1
    · exact hlen ▸ (List.getElem?_eq_some_iff.1 ho').1
    · show (newHandler v).className r = (newHandler v).className r'
      rw [← hcn, ← hcn]
      simp only [Handler.className, ho, ho']
      rw [hoc', hcc]
  rw [this]; exact hs'

theorem lines_not_masked {v : Nat} (hv : Supported v) (ls : List (Nat × List Str × Str)) (n : Str) : (readLines v ls).commands.lookup n ≠ some none := by
  intro h
  have hmap := supported_mapOk hv
  have inv := session_inv hv (readLines_session v ls)
  have : (commandMap v).lookup n ≠ none := fun hn => by rw [(inv.names n).2 hn] at h; cases h
  obtain ⟨c, hc⟩ := Option.ne_none_iff_exists'.1 this
  obtain ⟨r, o, hs, _⟩ := lines_served hv ls (mem_of_lookup' hc)
  rw [Handler.Serves, h] at hs
  cases hs

theorem accepted_snoc (ls : List (Nat × List Str × Str)) (l : Nat × List Str × Str) (h : Handler CState Ns) :
    accepted h (ls ++ [l]) = accepted h ls ++
      match ((ls.foldl (fun h l => (h.dispatch l.1 l.2.1 l.2.2).1) h).dispatch l.1 l.2.1 l.2.2).2 with
      | none => [l]
      | some _ => [] := by
  induction ls generalizing h with
  | nil => simp only [List.nil_append, accepted, List.foldl_nil]
  | cons a t ih =>
    rw [List.cons_append, accepted, accepted, ih, List.foldl_cons]
    split <;> rfl

/-- C58: after any lines, the data list of a command holds one object for each accepted line of that
command, in the order of the lines, each carrying the number of its line. -/
theorem C58_lines {v : Nat} (hv : Supported v) (ls : List (Nat × List Str × Str)) {n : Str} (hl : ListCommand v n) (hn : n ≠ c!"multipath") :
    (dataOf (readLines v ls) n).map (·.getD c!"lineno") = ((accepted (newHandler v) ls).filter (isLineOf n)).map fun l => Val.int l.1 := by
  have hmap := supported_mapOk hv
  have hnames : ∀ m, SameCommand n m → m ≠ c!"multipath" := by
    rintro m (rfl | ⟨g, hg, h1, h2⟩) rfl
    · exact hn rfl
    · exact (show ∀ g ∈ aliases, c!"multipath" ∉ g by decide) g hg h2
  have hlist : ∀ m, SameCommand n m → (∃ c, (commandMap v).lookup m = some c) → ListCommand v m := by
    rintro m hs ⟨c, hc⟩
    obtain ⟨c', hc', hli⟩ := hl
    have := list_class hv (mem_of_lookup' hc') (mem_of_lookup' hc) hs hli
    exact ⟨c, hc, by rw [← this]; exact hli⟩
  induction ls using snoc_ind with
  | nil =>
    have b : Registered (newHandler v) (commandMap v) := registerAll_registered hmap.dict
    obtain ⟨c, hc, _⟩ := hl
    obtain ⟨r, o, hs, ho, _⟩ := b.served n c hc
    show (dataOf (newHandler v) n).map _ = _
    rw [data_serves hs ho, (b.objs r o ho).1]
    have hi : ∀ x ∈ commandMaps, ∀ y ∈ x.2, y.2.init.data = [] := by
      intro x hx y hy
      have := List.all_eq_true.1 (List.all_eq_true.1 (show (commandMaps.all fun x => x.2.all fun y => y.2.init.data.isEmpty) = true by decide +kernel) x hx) y hy
      exact List.isEmpty_iff.1 this
    obtain ⟨n', h2, _⟩ := (b.objs r o ho).2
    have : o.cls.init.data = [] := hi _ (supported_mem hv) _ (mem_of_lookup' h2)
    rw [show o.cls.new.inst.attrs.data = [] from this]
    rfl
  | snoc ls l ih =>
    rw [readLines_snoc, accepted_snoc]
    have s := readLines_session v ls
    have hfold : ls.foldl (fun h l => (h.dispatch l.1 l.2.1 l.2.2).1) (newHandler v) = readLines v ls := rfl
    rw [hfold, List.filter_append, List.map_append, ← ih]
    obtain ⟨k, args, line⟩ := l
    simp only
    match args with
    | [] => simp [Handler.dispatch]
    | m :: args =>
      by_cases hs : SameCommand n m
      · have hmo := hnames m hs
        have hold : (∃ r, (readLines v ls).Serves m r) → dataOf (readLines v ls) m = dataOf (readLines v ls) n ∧
            dataOf ((readLines v ls).dispatch k (m :: args) line).1 m = dataOf ((readLines v ls).dispatch k (m :: args) line).1 n := by
          rintro ⟨r, hr⟩
          have hr' := lines_same hv ls hl hs hr
          have hsh := dispatch_shape (readLines v ls) k (m :: args) line
          unfold dataOf
          rw [hsh.commands]
          rw [show (readLines v ls).commands.lookup m = some (some r) from hr, show (readLines v ls).commands.lookup n = some (some r) from hr']
          exact ⟨rfl, rfl⟩
        match hlk : (readLines v ls).commands.lookup m with
        | none => rw [C48_unknown _ k m args line hlk]; simp
        | some none => exact absurd hlk (lines_not_masked hv ls m)
        | some (some r) =>
          obtain ⟨h1, h2⟩ := hold ⟨r, hlk⟩
          cases hres : ((readLines v ls).dispatch k (m :: args) line).2 with
          | none =>
            have hne : (commandMap v).lookup m ≠ none := fun hno => by
              rw [((session_inv hv s).names m).2 hno] at hlk; cases hlk
            obtain ⟨d, hd, hnum⟩ := C58_accepted hv s (hlist m hs (Option.ne_none_iff_exists'.1 hne)) hmo (lines_not_masked hv ls m) hres
            rw [← h2, hd, h1, List.map_append]
            have : isLineOf n (k, m :: args, line) = true := decide_eq_true hs
            simp [this, hnum]
          | some e =>
            rw [← h2, C58_refused hv s hmo hres, h1]; simp
      · rw [C58_other hv s hs]
        have : isLineOf n (k, m :: args, line) = false := decide_eq_false hs
        cases ((readLines v ls).dispatch k (m :: args) line).2 <;> simp [this]

/-- `multipath` is different: its objects do not carry the number of their line, and a later line
changes an earlier object. -/
theorem C58_multipath :
    (dataOf (readLines Version.F8 [(7, [c!"multipath", c!"--name=a", c!"--device=b", c!"--rule=c"], [])]) c!"multipath").map (·.getD c!"lineno") = [.int 0] ∧
    (dataOf (readLines Version.F8 [(1, [c!"multipath", c!"--name=z", c!"--device=y", c!"--rule=x"], []), (2, [c!"multipath", c!"--name=a", c!"--device=b", c!"--rule=c"], [])])
      c!"multipath").map (·.getD c!"paths") ≠
    ((dataOf (readLines Version.F8 [(1, [c!"multipath", c!"--name=z", c!"--device=y", c!"--rule=x"], []), (2, [c!"multipath", c!"--name=a", c!"--device=b", c!"--rule=c"], []),
      (3, [c!"multipath", c!"--name=a", c!"--device=d", c!"--rule=c"], [])]) c!"multipath").map (·.getD c!"paths")).take 2 := by
  decide +kernel

/-- The commands with data lists in Fedora 34. -/
example : ((commandMap Version.F34).map (·.1)).filter (fun n => decide (ListCommand Version.F34 n)) =
    [c!"btrfs", c!"driverdisk", c!"module", c!"fcoe", c!"group", c!"iscsi", c!"logvol", c!"mount", c!"network", c!"nvdimm", c!"timesource", c!"part",
      c!"partition", c!"raid", c!"repo", c!"snapshot", c!"sshpw", c!"sshkey", c!"user", c!"volgroup", c!"zfcp"] := by decide +kernel

/-- Three lines for one list, one of them refused. -/
example : (dataOf (readLines Version.F34 [(1, [c!"part", c!"/", c!"--size=1"], []), (2, [c!"part"], []), (3, [c!"partition", c!"/boot", c!"--size=1"], []),
    (4, [c!"lang", c!"C"], [])]) c!"part").map (·.getD c!"lineno") = [.int 1, .int 3] := by
  decide +kernel

example : accepted (newHandler Version.F34) [(1, [c!"part", c!"/", c!"--size=1"], []), (2, [c!"part"], []), (3, [c!"partition", c!"/boot", c!"--size=1"], []),
    (4, [c!"lang", c!"C"], [])] = [(1, [c!"part", c!"/", c!"--size=1"], []), (3, [c!"partition", c!"/boot", c!"--size=1"], []), (4, [c!"lang", c!"C"], [])] := by
  decide +kernel

end Ks
