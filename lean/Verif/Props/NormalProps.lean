import Verif.Commands.NormalPart
import Verif.Commands.NormalLogvol
import Verif.Commands.NormalNetwork
import Verif.Commands.NormalOthers
import Verif.Props.ReadBackProps
import Verif.Props.LineProps
/-!
# C73: what a handler writes for an object is accepted and gives the same object
-/
namespace Ks

open Cmd

/-! ## Specification -/

/-- The commands whose text is read again, and the values of their objects without options, by version. -/
def lossless : List (Str × List (Nat × Ns)) :=
  [(c!"part", partBases), (c!"partition", partitionBases), (c!"logvol", logvolBases), (c!"network", networkBases), (c!"repo", repoBases), (c!"device", deviceBases),
   (c!"user", userBases), (c!"group", groupBases), (c!"fcoe", fcoeBases), (c!"iscsi", iscsiBases), (c!"zfcp", zfcpBases), (c!"module", moduleBases),
   (c!"timesource", timesourceBases)]

/-- Nothing is lost when the object is written. -/
def WritesAll (v : Nat) (n : Str) (d : Ns) : Prop :=
  ∃ sheet ∈ sheets.lookup n, ∃ bases ∈ lossless.lookup n, ∃ base ∈ bases.lookup v, (sheet v).Plain d ∧ (sheet v).Lossless (needs n v) (unread n) base d

instance (v : Nat) (n : Str) (d : Ns) : Decidable (WritesAll v n d) := by unfold WritesAll; infer_instance

/-- No line has been read of a command that excludes this one. -/
def NoRivals (h : Handler CState Ns) (n : Str) : Prop := ∀ a ∈ rivals n, h.seenAttr a ≠ some true

instance (h : Handler CState Ns) (n : Str) : Decidable (NoRivals h n) := by unfold NoRivals; infer_instance

/-! ## The commands of the table -/

theorem lossless_normal : ∀ x ∈ lossless, ∀ sheet, sheets.lookup x.1 = some sheet → ∀ y ∈ commandMaps, ∀ c, y.2.lookup x.1 = some c → c.hasList { attrs := {} } = true →
    ∃ base, x.2.lookup y.1 = some base ∧ c.Normal (sheet y.1) (needs x.1 y.1) (unread x.1) base ∧ c.SameText := by
  unfold lossless
  refine all_cons (fun _ h => by cases h; exact normal_part) (all_cons (fun _ h => by cases h; exact normal_partition) (all_cons (fun _ h => by cases h; exact normal_logvol)
    (all_cons (fun _ h => by cases h; exact normal_network) (all_cons (fun _ h => by cases h; exact normal_repo) (all_cons (fun _ h => by cases h; exact normal_device)
    (all_cons (fun _ h => by cases h; exact normal_user) (all_cons (fun _ h => by cases h; exact normal_group) (all_cons (fun _ h => by cases h; exact normal_fcoe)
    (all_cons (fun _ h => by cases h; exact normal_iscsi) (all_cons (fun _ h => by cases h; exact normal_zfcp) (all_cons (fun _ h => by cases h; exact normal_module)
    (all_cons (fun _ h => by cases h; exact normal_timesource) (List.forall_mem_nil _)))))))))))))

theorem sheets_known : commandMaps.all (fun y => sheets.all fun x => (y.2.lookup x.1).isNone || (x.2 y.1).names.all fun m => (y.2.lookup m).isSome) = true := by
  decide +kernel

/-! ## Lines that are accepted -/

/-- A command that no other command excludes sees nothing that keeps it from accepting a line. -/
theorem clear_view {v : Nat} (hv : Supported v) {h : Handler CState Ns} (s : Session v h) {n : Str} (hR : NoRivals h n) {r : Nat} {o : Obj CState Ns}
    (hs : h.Serves n r) (ho : h.heap[r]? = some o) (i : Inst CState) :
    ∃ t, Clear t ∧ ∀ args j, o.cls.parse (h.setInst r o i).seenAttr args j = o.cls.parse t args j := by
  have inv := session_inv hv s
  obtain ⟨p, hp, hm⟩ := inv.served n r hs
  rw [ho] at hp; cases hp
  have hother : ∀ a ∈ looksAt (attrName o.cls.name), (h.setInst r o i).seenAttr a = h.seenAttr a := by
    intro a ha
    rw [seenAttr_setInst ho]
    split
    · rename_i hr
      have := session_attr_class hv s a r hr
      have hcr : h.className r = o.cls.name := by simp [Handler.className, ho]
      rw [hcr] at this
      rw [← this] at ha
      exact absurd ha (looksAt_self _)
    · rfl
  have hriv : ∀ a ∈ looksAt (attrName o.cls.name), h.seenAttr a ≠ some true := fun a ha =>
    hR a (looksAt_rivals _ (storage_name hv hm (looksAt_storage ha).1) a ha)
  refine ⟨fun a => if a ∈ looksAt (attrName o.cls.name) then h.seenAttr a else if a = c!"autopart" then some false else none, ⟨?_, ?_⟩, fun args j => ?_⟩
  · dsimp only
    by_cases ha : c!"autopart" ∈ looksAt (attrName o.cls.name)
    · rw [if_pos ha]
      have hne := hriv _ ha
      have h1 := List.all_eq_true.1 commandMaps_partitioning _ (supported_mem hv)
      have h2 := List.all_eq_true.1 h1 c!"autopart" (by decide)
      obtain ⟨x, hx, hxa⟩ := List.any_eq_true.1 h2
      obtain ⟨q, hq⟩ := inv.attrs x hx
      rw [eq_of_beq hxa] at hq
      obtain ⟨p, hp⟩ : ∃ p, h.heap[q]? = some p := ⟨_, List.getElem?_eq_getElem ((reachable_wf inv.reach).attrs _ _ hq)⟩
      have hsa : h.seenAttr c!"autopart" = some p.inst.seen := by simp [Handler.seenAttr, hq, hp]
      rw [hsa] at hne ⊢
      cases hps : p.inst.seen
      · rfl
      · rw [hps] at hne; exact absurd rfl hne
    · rw [if_neg ha, if_pos rfl]
  · dsimp only
    by_cases ha : c!"mount" ∈ looksAt (attrName o.cls.name)
    · rw [if_pos ha]; exact hriv _ ha
    · rw [if_neg ha, if_neg (by decide)]; simp
  · exact session_local hv hm _ _ (fun a ha => by rw [hother a ha, if_pos ha]) args j

/-- A line that the command accepts whenever no other command excludes it. -/
theorem accepts_line {v : Nat} (hv : Supported v) {h : Handler CState Ns} (s : Session v h) {n : Str} {c : Command} (hc : (commandMap v).lookup n = some c)
    (hli : c.hasList { attrs := {} } = true) (hn : n ≠ c!"multipath") (hm : h.commands.lookup n ≠ some none) (hR : NoRivals h n) {args : List Str} {P : Ns → Prop}
    (hp : ∀ t i, Clear t → ∃ d, (c.parse t args i).2 = .ok (some d) ∧ P d) (l : Nat) (line : Str) :
    (h.dispatch l (n :: args) line).2 = none ∧ ∃ d, dataOf (h.dispatch l (n :: args) line).1 n = dataOf h n ++ [d] ∧ P d ∧ d.getD c!"lineno" = .int l := by
  have inv := session_inv hv s
  have hmap := supported_mapOk hv
  match hlk : h.commands.lookup n with
  | none => rw [(inv.names n).1 hlk] at hc; cases hc
  | some none => exact absurd hlk hm
  | some (some r) =>
    obtain ⟨o, ho, hmem⟩ := inv.served n r hlk
    have hoc : o.cls = c := by
      have := (mem_iff_lookup hmap.dict).1 hmem
      rw [hc] at this; cases this; rfl
    obtain ⟨I, hI⟩ := hmap.ok _ hmem
    have hL := session_lists hv hmem
    have hd := dispatch_eq hlk ho l args line
    simp only at hd
    have hst := hasStorage_setInst ho (o.inst.noted n line l) (inv.storage hmap)
    have hf := hI.frame (not_multipath hv hmem hn) _ args (o.inst.noted n line l) hst ((inv.objs r o ho).2 I _ hI)
    have hhl : ∀ i, o.cls.hasList i = true := fun i => by rw [hL.one i { attrs := {} }, hoc]; exact hli
    obtain ⟨t, ht, hview⟩ := clear_view hv s hR hlk ho (o.inst.noted n line l)
    obtain ⟨d, hpd, hP⟩ := hp t (o.inst.noted n line l) ht
    rw [← hoc, ← hview] at hpd
    generalize hpp : o.cls.parse (h.setInst r o (o.inst.noted n line l)).seenAttr args (o.inst.noted n line l) = p at hd hf hpd
    rw [hd]
    obtain ⟨j, x⟩ := p
    cases hpd
    refine ⟨rfl, d, ?_, hP, ?_⟩
    · rw [data_setInst hlk ho, data_serves hlk ho]
      simp only [CmdClass.stored, hhl, if_true]
      rw [hL.add, if_pos (hhl _)]
      exact congrArg (· ++ [d]) hf.data
    · obtain ⟨d', e, hnum⟩ := hL.value _ args _ (some d) (by rw [hpp]) (hhl _)
      cases e
      exact hnum (not_multipath hv hmem hn)

/-- The name that the command writes. -/
def writtenName (n : Str) : Str := if n = c!"partition" then c!"part" else n

theorem lossless_names : ∀ x ∈ lossless, ∀ sheet, sheets.lookup x.1 = some sheet → ∀ v, (sheet v).names = [writtenName x.1] := by
  unfold lossless
  iterate 13 refine all_cons (fun _ h => by cases h; exact fun _ => rfl) ?_
  exact List.forall_mem_nil _

/-- The class of the command under the name that is written. -/
theorem written_class {v : Nat} (hv : Supported v) {n : Str} {sheet : Nat → Sheet} {bases : List (Nat × Ns)} (hsh : sheets.lookup n = some sheet)
    (hbs : lossless.lookup n = some bases) {c : Command} (hc : (commandMap v).lookup n = some c) (hli : c.hasList { attrs := {} } = true) :
    (commandMap v).lookup (writtenName n) = some c := by
  have hsm : (n, sheet) ∈ sheets := mem_of_lookup' hsh
  have hm : writtenName n ∈ (sheet v).names := by rw [lossless_names _ (mem_of_lookup' hbs) sheet hsh v]; simp
  have hs := sheet_names _ hsm v _ hm
  have hk := List.all_eq_true.1 (List.all_eq_true.1 sheets_known _ (supported_mem hv)) _ hsm
  simp only [hc, Option.isNone_some, Bool.false_or] at hk
  have hk := List.all_eq_true.1 hk _ hm
  match hlk : (commandMap v).lookup (writtenName n) with
  | none => rw [hlk] at hk; cases hk
  | some c' =>
    have hsn : SameCommand n (writtenName n) := by
      rcases hs with hs | ⟨g, hg, a, b⟩
      · exact .inl hs.symm
      · exact .inr ⟨g, hg, b, a⟩
    rw [list_class hv (mem_of_lookup' hc) (mem_of_lookup' hlk) hsn hli]

/-- The text of an object that loses nothing. -/
theorem normal_text {v : Nat} (hv : Supported v) {n : Str} {c : Command} (hc : (commandMap v).lookup n = some c) (hli : c.hasList { attrs := {} } = true)
    {h : Handler CState Ns} (s : Session v h) {d : Ns} (hd : d ∈ dataOf h n) (hw : WritesAll v n d) :
    (commandMap v).lookup (writtenName n) = some c ∧ c.SameText ∧ writtenName n ≠ c!"multipath" ∧
    ∃ args, shlexSplit (objectText v n d) true = .ok (writtenName n :: args) ∧
      ∀ t i, Clear t → ∃ d', (c.parse t args i).2 = .ok (some d') ∧ Alike [c!"lineno"] d d' := by
  obtain ⟨sheet, hsh, bases, hbs, base, hb, hp, hL⟩ := hw
  have hsm : (n, sheet) ∈ sheets := mem_of_lookup' hsh
  obtain ⟨base', hb', hN, hS⟩ := lossless_normal _ (mem_of_lookup' hbs) sheet hsh _ (supported_mem hv) c hc hli
  rw [Option.mem_def] at hb
  rw [hb] at hb'
  cases hb'
  obtain ⟨t, args0, i, hd0⟩ := session_data hv s (sheet_multipath _ hsm).1 (R := fun d => ∃ t args i, (c.parse t args i).2 = .ok (some d))
    (fun c' hc' => by rw [hc] at hc'; cases hc'; exact fun t args i d hd => ⟨t, args, i, hd⟩) d hd
  obtain ⟨m, hm, args, h1, h2⟩ := hN t args0 i d hd0 hp hL
  have hmm := hm
  rw [lossless_names _ (mem_of_lookup' hbs) sheet hsh v, List.mem_singleton] at hm
  subst hm
  exact ⟨written_class hv hsh hbs hc hli, hS, (sheet_multipath _ hsm).2 _ (sheet_names _ hsm v _ hmm), args, by simpa only [objectText, hc] using h1, h2⟩

/-! ## C73 -/

/-- C73: take any object `d` that a command of the table `lossless` holds in a handler that has read any lines, and that
loses nothing when it is written (`WritesAll`).  Its text consists of a name of the command and arguments.  Any handler
of the version that has read any lines, but none of a command that excludes this one, accepts these words as a line.  It
appends an object to the data list that has the same attributes with the same values, except for the line number. -/
theorem C73_text_accepted {v : Nat} (hv : Supported v) {n : Str} (hl : ListCommand v n) {h : Handler CState Ns} (s : Session v h) {d : Ns} (hd : d ∈ dataOf h n)
    (hw : WritesAll v n d) :
    ∃ args, shlexSplit (objectText v n d) true = .ok (writtenName n :: args) ∧
      ∀ h', Session v h' → h'.commands.lookup (writtenName n) ≠ some none → NoRivals h' (writtenName n) → ∀ l line,
        (h'.dispatch l (writtenName n :: args) line).2 = none ∧
        ∃ d', dataOf (h'.dispatch l (writtenName n :: args) line).1 (writtenName n) = dataOf h' (writtenName n) ++ [d'] ∧ (∀ k, k ≠ c!"lineno" → d'.get k = d.get k) ∧
          d'.getD c!"lineno" = .int l := by
  obtain ⟨c, hc, hli⟩ := hl
  obtain ⟨hcm, -, hmp, args, h1, h2⟩ := normal_text hv hc hli s hd hw
  refine ⟨args, h1, fun h' s' hmask hR l line => ?_⟩
  obtain ⟨ok, d', e1, e2, e3⟩ := accepts_line hv s' hcm hli hmp hmask hR h2 l line
  exact ⟨ok, d', e1, fun k hk => (e2 k (by simpa using hk)).symm, e3⟩

/-! ## C74: the whole list -/

/-- Read lines until one is refused. -/
def readAll : List (Nat × List Str × Str) → Handler CState Ns → Handler CState Ns × Option Exc
  | [], h => (h, none)
  | l :: ls, h => match h.dispatch l.1 l.2.1 l.2.2 with
    | (h, none) => readAll ls h
    | (h, some e) => (h, some e)

/-- A line of a command does not mark the commands that exclude it. -/
theorem rivals_other : commandMaps.all (fun y => y.2.all fun x => (rivals x.1).all fun a => attrName x.2.name != a) = true := by decide +kernel

theorem noRivals_dispatch {v : Nat} (hv : Supported v) {h : Handler CState Ns} (s : Session v h) {m : Str} (hR : NoRivals h m) (l : Nat) (args : List Str) (line : Str) :
    NoRivals (h.dispatch l (m :: args) line).1 m := by
  have inv := session_inv hv s
  match hlk : h.commands.lookup m with
  | none => rw [C48_unknown h l m args line hlk]; exact hR
  | some none => rw [C48_masked h l m args line hlk]; exact hR
  | some (some r) =>
    obtain ⟨o, ho, hmem⟩ := inv.served m r hlk
    have hd := dispatch_eq hlk ho l args line
    simp only at hd
    have key : ∀ i, NoRivals (h.setInst r o i) m := by
      intro i a ha
      rw [seenAttr_setInst ho]
      split
      · rename_i hr
        have := session_attr_class hv s a r hr
        have hcr : h.className r = o.cls.name := by simp [Handler.className, ho]
        rw [hcr] at this
        have h2 := List.all_eq_true.1 (List.all_eq_true.1 (List.all_eq_true.1 rivals_other _ (supported_mem hv)) _ hmem) a ha
        rw [this] at h2
        simp at h2
      · exact hR a ha
    rw [hd]
    split <;> exact key _

theorem commands_dispatch (h : Handler CState Ns) (l : Nat) (m : Str) (args : List Str) (line : Str) : (h.dispatch l (m :: args) line).1.commands = h.commands := by
  unfold Handler.dispatch
  dsimp only
  split
  · rfl
  · rfl
  · split
    · rfl
    · split <;> rfl

/-- Lines that the command accepts one by one. -/
theorem accepts_lines {v : Nat} (hv : Supported v) {m : Str} {c : Command} (hc : (commandMap v).lookup m = some c)
    (hli : c.hasList { attrs := {} } = true) (hn : m ≠ c!"multipath") {ds : List Ns} {wss : List (List Str)}
    (hF : List.Forall₂ (fun d ws => ∃ args, ws = m :: args ∧ ∀ t i, Clear t → ∃ d', (c.parse t args i).2 = .ok (some d') ∧ Alike [c!"lineno"] d d') ds wss) :
    ∀ {h : Handler CState Ns}, Session v h → h.commands.lookup m ≠ some none → NoRivals h m → ∀ ls, ls.map (·.2.1) = wss →
      (readAll ls h).2 = none ∧ Session v (readAll ls h).1 ∧ ∃ ds', dataOf (readAll ls h).1 m = dataOf h m ++ ds' ∧ AlikeL ds ds' := by
  induction hF with
  | nil =>
    intro h s _ _ ls hls
    rw [List.map_eq_nil_iff] at hls
    subst hls
    exact ⟨rfl, s, [], by simp [readAll], .nil⟩
  | @cons d ws ds wss h1 _ ih =>
    intro h s hm hR ls hls
    obtain ⟨args, rfl, h1⟩ := h1
    match ls, hls with
    | (k, ws, line) :: ls, hls =>
      rw [List.map_cons] at hls
      injection hls with e hls
      simp only at e
      subst e
      obtain ⟨ok, d', e1, e2, -⟩ := accepts_line hv s hc hli hn hm hR h1 k line
      have hs' : Session v (h.dispatch k (m :: args) line).1 := .dispatch k (m :: args) line s
      obtain ⟨g1, g2, ds', g3, g4⟩ := ih hs' (by rw [commands_dispatch]; exact hm) (noRivals_dispatch hv s hR k args line) ls hls
      have hr : readAll ((k, m :: args, line) :: ls) h = readAll ls (h.dispatch k (m :: args) line).1 := by
        rw [readAll]
        split
        · rename_i h2 hh
          simp only at hh
          rw [hh]
        · rename_i h2 e hh
          simp only at hh
          rw [hh] at ok; cases ok
      rw [hr]
      refine ⟨g1, g2, d' :: ds', ?_, .cons e2 g4⟩
      rw [g3, e1, List.append_assoc]
      rfl

/-- C74: let a handler that has read any lines hold, for a command of the table `lossless`, objects that lose nothing
when they are written.  The texts of the objects are lines.  Any handler of the version that has not read a line of a
command that excludes this one accepts them all, and appends objects that are the same except for their line numbers.
If it had none before, the command then writes the same text as in the first handler. -/
theorem C74_list_restored {v : Nat} (hv : Supported v) {n : Str} (hl : ListCommand v n) (hn : n ∈ lossless.map (·.1)) {h : Handler CState Ns} (s : Session v h)
    (hm : h.commands.lookup n ≠ some none) (hall : ∀ d ∈ dataOf h n, WritesAll v n d) :
    ∃ wss, List.Forall₂ (fun d ws => shlexSplit (objectText v n d) true = .ok ws) (dataOf h n) wss ∧
      ∀ h', Session v h' → h'.commands.lookup (writtenName n) ≠ some none → NoRivals h' (writtenName n) → ∀ ls, ls.map (·.2.1) = wss →
        (readAll ls h').2 = none ∧
        (∃ ds, dataOf (readAll ls h').1 (writtenName n) = dataOf h' (writtenName n) ++ ds ∧ List.Forall₂ (fun d d' => ∀ k, k ≠ c!"lineno" → d'.get k = d.get k) (dataOf h n) ds) ∧
        (dataOf h' (writtenName n) = [] → textOf (readAll ls h').1 (writtenName n) = textOf h n) := by
  obtain ⟨c, hc, hli⟩ := hl
  obtain ⟨x, hx, rfl⟩ := List.mem_map.1 hn
  obtain ⟨sheet, hsh⟩ : ∃ sheet, sheets.lookup x.1 = some sheet := by
    have : ∀ x ∈ lossless, (sheets.lookup x.1).isSome = true := by
      unfold lossless
      iterate 13 refine all_cons rfl ?_
      exact List.forall_mem_nil _
    exact Option.isSome_iff_exists.1 (this x hx)
  have hbs : lossless.lookup x.1 = some x.2 := by
    have : ∀ x ∈ lossless, lossless.lookup x.1 = some x.2 := by
      have h : (lossless.map (·.1)).Nodup := by
        unfold lossless
        simp only [List.map_cons, List.map_nil]
        decide
      exact fun x hx => (mem_iff_lookup h).1 hx
    exact this x hx
  obtain ⟨-, -, -, hS⟩ := lossless_normal _ hx sheet hsh _ (supported_mem hv) c hc hli
  have hcm := written_class hv hsh hbs hc hli
  have hsm : (x.1, sheet) ∈ sheets := mem_of_lookup' hsh
  have hmp : writtenName x.1 ≠ c!"multipath" := (sheet_multipath _ hsm).2 _ (sheet_names _ hsm v _ (by rw [lossless_names _ hx sheet hsh v]; simp))
  have hF : ∀ l : List Ns, (∀ d ∈ l, d ∈ dataOf h x.1) → ∃ wss, List.Forall₂ (fun d ws => shlexSplit (objectText v x.1 d) true = .ok ws) l wss ∧
      List.Forall₂ (fun d ws => ∃ args, ws = writtenName x.1 :: args ∧ ∀ t i, Clear t → ∃ d', (c.parse t args i).2 = .ok (some d') ∧ Alike [c!"lineno"] d d') l wss := by
    intro l
    induction l with
    | nil => exact fun _ => ⟨[], .nil, .nil⟩
    | cons d l ih =>
      intro hl
      obtain ⟨wss, i1, i2⟩ := ih fun d hd => hl d (List.mem_cons_of_mem _ hd)
      have hd := hl d (by simp)
      obtain ⟨-, -, -, args, h1, h2⟩ := normal_text hv hc hli s hd (hall d hd)
      exact ⟨(writtenName x.1 :: args) :: wss, .cons h1 i1, .cons ⟨args, rfl, h2⟩ i2⟩
  obtain ⟨wss, h1, h2⟩ := hF _ fun d hd => hd
  refine ⟨wss, h1, fun h' s' hm' hR' ls hls => ?_⟩
  obtain ⟨g1, g2, ds, g3, g4⟩ := accepts_lines hv hcm hli hmp h2 s' hm' hR' ls hls
  refine ⟨g1, ⟨ds, g3, g4.imp fun a b hab k hk => (hab k (by simpa using hk)).symm⟩, fun he => ?_⟩
  have obj : ∀ {g : Handler CState Ns} {m : Str}, Session v g → (commandMap v).lookup m = some c → g.commands.lookup m ≠ some none →
      ∃ o, objectOf g m = some o ∧ o.cls = c ∧ dataOf g m = o.inst.attrs.data := by
    intro g m sg hcm hmg
    have inv := session_inv hv sg
    match hlk : g.commands.lookup m with
    | none => rw [(inv.names m).1 hlk] at hcm; cases hcm
    | some none => exact absurd hlk hmg
    | some (some r) =>
      obtain ⟨o, ho, hmem⟩ := inv.served m r hlk
      refine ⟨o, by simp [objectOf, hlk, ho], ?_, data_serves hlk ho⟩
      have := (mem_iff_lookup (supported_mapOk hv).dict).1 hmem
      rw [hcm] at this; cases this; rfl
  have hcs : ∀ ls (g : Handler CState Ns), (readAll ls g).1.commands = g.commands := by
    intro ls
    induction ls with
    | nil => exact fun _ => rfl
    | cons l ls ih =>
      intro g
      have hd : (g.dispatch l.1 l.2.1 l.2.2).1.commands = g.commands := by
        match hw : l.2.1 with
        | [] => rfl
        | m :: args => exact commands_dispatch g l.1 m args l.2.2
      rw [readAll]
      split
      · rename_i g' hg; rw [ih, ← hd, hg]
      · rename_i g' e hg; rw [← hd, hg]
  obtain ⟨o, o1, o2, o3⟩ := obj s hc hm
  obtain ⟨o', p1, p2, p3⟩ := obj g2 hcm (by rw [hcs]; exact hm')
  unfold textOf
  rw [o1, p1]
  simp only [o2, p2]
  refine (hS _ _ ?_).symm
  rw [← o3, ← p3, g3, he]
  exact g4

/-! ### The hypotheses can be met -/

/-- The only object of the command loses nothing. -/
def loses (v : Nat) (n : Str) (h : Handler CState Ns) : Bool :=
  match dataOf h n with
  | [d] => !decide (WritesAll v n d)
  | _ => true

example : loses Version.F34 c!"part" (readOne Version.F34 partLine) = false ∧ NoRivals (newHandler Version.F34) c!"part" ∧
    (newHandler Version.F34).commands.lookup c!"part" ≠ some none := by decide +kernel

/-- A logical volume that is not formatted exists, and `--useexisting` is written for it. -/
example : loses Version.RHEL8 c!"logvol" (readOne Version.RHEL8 [c!"logvol", c!"/var", c!"--vgname=vg", c!"--name=lv", c!"--noformat"]) = false ∧
    wordsOf Version.RHEL8 c!"logvol" (readOne Version.RHEL8 [c!"logvol", c!"/var", c!"--vgname=vg", c!"--name=lv", c!"--noformat"]) =
      some [c!"logvol", c!"/var", c!"--noformat", c!"--useexisting", c!"--name=lv", c!"--vgname=vg"] := by decide +kernel

/-- `--noipv4` clears the boot protocol. -/
example : loses Version.F34 c!"network" (readOne Version.F34 [c!"network", c!"--device=eth0", c!"--noipv4", c!"--hostname=h"]) = false := by decide +kernel

example : loses Version.F34 c!"repo" (readOne Version.F34 [c!"repo", c!"--name=my repo", c!"--baseurl=http://x/", c!"--cost=10"]) = false ∧
    loses Version.F34 c!"user" (readOne Version.F34 [c!"user", c!"--name=joe", c!"--gecos=Joe X", c!"--groups=a,b", c!"--uid=7"]) = false ∧
    loses Version.F34 c!"iscsi" (readOne Version.F34 [c!"iscsi", c!"--ipaddr=1.2.3.4", c!"--target=t"]) = false ∧
    loses Version.F10 c!"device" (readOne Version.F10 [c!"device", c!"e1000", c!"--opts=a b"]) = false := by decide +kernel

/-- Two objects of one command. -/
def twoGroups : Handler CState Ns := ((readOne Version.F34 [c!"group", c!"--name=a"]).dispatch 2 [c!"group", c!"--name=b", c!"--gid=9"] []).1

example : ListCommand Version.F34 c!"group" ∧ c!"group" ∈ lossless.map (·.1) ∧ twoGroups.commands.lookup c!"group" ≠ some none ∧
    (dataOf twoGroups c!"group").length = 2 ∧ ∀ d ∈ dataOf twoGroups c!"group", WritesAll Version.F34 c!"group" d := by decide +kernel

/-- The attributes in `needs` must have a value: a group without a name is accepted and its text is not. -/
theorem C73_empty_name : ((newHandler Version.F34).dispatch 1 [c!"group", c!"--name="] []).2 = none ∧
    wordsOf Version.F34 c!"group" (readOne Version.F34 [c!"group", c!"--name="]) = some [c!"group"] ∧
    ((newHandler Version.F34).dispatch 1 [c!"group"] []).2 ≠ none := by decide +kernel

/-- The condition on other commands cannot be dropped: after `autopart` the text of a partition is refused. -/
theorem C73_rivals : loses Version.F34 c!"part" (readOne Version.F34 partLine) = false ∧
    ((readOne Version.F34 [c!"autopart"]).dispatch 2 ((wordsOf Version.F34 c!"part" (readOne Version.F34 partLine)).getD []) []).2 ≠ none := by decide +kernel

end Ks
