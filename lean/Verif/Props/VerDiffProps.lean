import Verif.VerDiff
import Verif.Commands.OpBuilt
import Verif.PackagesLemmas
import Verif.Props.OrderProps
import Verif.Props.ToolProps
import Verif.Props.ArgparseProps
/-!
# C79: what `ksverdiff` says, and what `ksshell` offers
-/
namespace Ks
open Ks.Cmd

/-! ## What the words mean -/

/-- Every line of the command is refused, whatever was read before, unless the name is masked. -/
def RefusedIn (v : Nat) (n : Str) : Prop :=
  ∀ h, Session v h → h.commands.lookup n ≠ some none → ∀ lineno args line,
    ∃ t, (h.dispatch lineno (n :: args) line).2 = some (.parse t (some lineno))

/-- The version does not know the command. -/
def UnknownIn (v : Nat) (n : Str) : Prop :=
  ∀ h, Session v h → ∀ lineno args line, h.dispatch lineno (n :: args) line = (h, some (.parse (c!"Unknown command: " ++ n) (some lineno)))

/-- No line of the command is refused, and its object writes nothing. -/
def IgnoredIn (v : Nat) (n : Str) : Prop :=
  ∀ h, Session v h → ∀ lineno args line, (h.dispatch lineno (n :: args) line).2 = none ∧
    ∀ o, (h.dispatch lineno (n :: args) line).1.cmdObj n = some o → o.cls.str o.inst = []

/-- The version knows the name. -/
def KnownIn (v : Nat) (n : Str) : Prop := n ∈ (commandMap v).map (·.1)

/-! ## The objects of a new handler -/

theorem new_cmdObj {v : Nat} (hv : Supported v) {n : Str} {c : Command} (hc : (commandMap v).lookup n = some c) :
    ∃ o, (newHandler v).cmdObj n = some o ∧ o.cls = c := by
  have hm := supported_mapOk hv
  have b : Registered (Handler.build (commandMap v) none none) (commandMap v) := registerAll_registered hm.dict
  obtain ⟨r, o, hr, ho, -⟩ := b.served n c hc
  have hr' : (newHandler v).commands.lookup n = some (some r) := hr
  obtain ⟨o', ho', hmem⟩ := (session_inv hv .new).served n r hr'
  have ho2 : (newHandler v).heap[r]? = some o := ho
  rw [ho2] at ho'; cases ho'
  refine ⟨o, by unfold Handler.cmdObj; rw [hr']; exact ho2, ?_⟩
  have := (mem_iff_lookup hm.dict).1 hmem
  rw [hc] at this; exact (Option.some.inj this).symm

theorem new_cmdObj_class {v : Nat} (hv : Supported v) {n : Str} {o : Obj CState Ns} (ho : (newHandler v).cmdObj n = some o) :
    (n, o.cls) ∈ commandMap v := by
  unfold Handler.cmdObj at ho
  split at ho
  · rename_i r hr
    obtain ⟨o', ho', hmem⟩ := (session_inv hv .new).served n r hr
    rw [ho] at ho'; cases ho'; exact hmem
  · cases ho

theorem mem_commandSet {v : Nat} (hv : Supported v) {n : Str} : n ∈ commandSet (newHandler v) ↔ KnownIn v n := by
  have := (session_inv hv .new).names n
  rw [lookup_none_iff, lookup_none_iff] at this
  unfold commandSet KnownIn
  rw [mem_sortedSet]
  exact not_iff_not.1 this

theorem listed_of_map {v : Nat} (hv : Supported v) {n : Str} {c : Command} (h : (n, c) ∈ commandMap v) : Cmd.Listed c :=
  Cmd.commandMaps_listed _ (supported_mem hv) _ h

theorem unknownIn_of {v : Nat} (hv : Supported v) {n : Str} (hn : ¬ KnownIn v n) : UnknownIn v n := by
  intro h hs lineno args line
  have : h.commands.lookup n = none := ((session_inv hv hs).names n).2 (lookup_none_iff.2 hn)
  simp only [Handler.dispatch, this]

theorem refusedIn_unknown {v : Nat} {n : Str} (hu : UnknownIn v n) : RefusedIn v n := by
  intro h hs _ lineno args line
  exact ⟨_, by rw [hu h hs lineno args line]⟩

theorem session_class {v : Nat} (hv : Supported v) {h : KsHandler} (hs : Session v h) {n : Str} {r : Nat} (hr : h.commands.lookup n = some (some r)) {c : Command}
    (hc : (n, c) ∈ commandMap v) : ∃ o, h.heap[r]? = some o ∧ o.cls = c := by
  obtain ⟨o, ho, hmem⟩ := (session_inv hv hs).served n r hr
  refine ⟨o, ho, ?_⟩
  have h1 := (mem_iff_lookup (supported_mapOk hv).dict).1 hmem
  have h2 := (mem_iff_lookup (supported_mapOk hv).dict).1 hc
  rw [h1] at h2; exact Option.some.inj h2

theorem refusedIn_removed {v : Nat} (hv : Supported v) {n : Str} (hr : (newHandler v).isRemoved n = true) : RefusedIn v n := by
  unfold Handler.isRemoved at hr
  split at hr
  · rename_i o ho
    have hmem := new_cmdObj_class hv ho
    have hc := (listed_of_map hv hmem).removed hr
    intro h hs hnm lineno args line
    cases hl : h.commands.lookup n with
    | none => exact ⟨_, by simp only [Handler.dispatch, hl]; rfl⟩
    | some x =>
      cases x with
      | none => exact absurd hl hnm
      | some r =>
        obtain ⟨o', ho', hcls⟩ := session_class hv hs hl hmem
        rw [hc] at hcls
        refine ⟨n ++ c!" has been removed.", ?_⟩
        simp only [Handler.dispatch, hl, ho', hcls]
        rfl
  · cases hr

theorem ignoredIn_deprecated {v : Nat} (hv : Supported v) {n : Str} (hd : (newHandler v).isDeprecated n = true) (hr : (newHandler v).isRemoved n = false) :
    IgnoredIn v n := by
  unfold Handler.isDeprecated at hd
  unfold Handler.isRemoved at hr
  split at hd
  · rename_i o ho
    rw [ho] at hr
    have hmem := new_cmdObj_class hv ho
    have hc := (listed_of_map hv hmem).deprecated hr hd
    intro h hs lineno args line
    have hs' := Session.dispatch lineno (n :: args) line hs
    refine ⟨?_, fun o' ho' => ?_⟩
    · cases hl : h.commands.lookup n with
      | none =>
        have := ((session_inv hv hs).names n).1 hl
        rw [lookup_none_iff] at this
        exact absurd (List.mem_map.2 ⟨_, hmem, rfl⟩) this
      | some x =>
        cases x with
        | none => simp only [Handler.dispatch, hl]
        | some r =>
          obtain ⟨o', ho', hcls⟩ := session_class hv hs hl hmem
          rw [hc] at hcls
          simp only [Handler.dispatch, hl, ho', hcls]
          rfl
    · unfold Handler.cmdObj at ho'
      split at ho'
      · rename_i r hr'
        obtain ⟨o2, ho2, hcls⟩ := session_class hv hs' hr' hmem
        rw [ho'] at ho2; cases ho2
        rw [hcls, hc]; rfl
      · cases ho'
  · cases hd

/-! ## The lists of commands -/

theorem mem_setMinus {x : Str} {a b : List Str} : x ∈ setMinus a b ↔ x ∈ a ∧ x ∉ b := by
  simp [setMinus]

/-- **C79 (removed).** The commands listed as removed are those of the first version that the second does not know, or that it
has as removed while the first does not. Every line of such a command is refused, whatever was read before. -/
theorem C79_removed {a b : Nat} (ha : Supported a) (hb : Supported b) (n : Str) :
    (n ∈ (verDiff (newHandler a) (newHandler b)).removed ↔
      KnownIn a n ∧ (¬ KnownIn b n ∨ ((newHandler b).isRemoved n = true ∧ (newHandler a).isRemoved n = false))) ∧
    (n ∈ (verDiff (newHandler a) (newHandler b)).removed → RefusedIn b n) := by
  have key : n ∈ (verDiff (newHandler a) (newHandler b)).removed ↔
      KnownIn a n ∧ (¬ KnownIn b n ∨ ((newHandler b).isRemoved n = true ∧ (newHandler a).isRemoved n = false)) := by
    have hrk : (newHandler b).isRemoved n = true → KnownIn b n := by
      intro h
      unfold Handler.isRemoved at h
      split at h
      · rename_i o ho; exact List.mem_map.2 ⟨_, new_cmdObj_class hb ho, rfl⟩
      · cases h
    simp only [verDiff, mem_sortedSet, List.mem_append, List.mem_filter, mem_setMinus, mem_commandSet ha, mem_commandSet hb, Bool.and_eq_true,
      Bool.not_eq_true', decide_eq_true_eq]
    tauto
  refine ⟨key, fun h => ?_⟩
  rcases (key.1 h).2 with h' | ⟨h', -⟩
  · exact refusedIn_unknown (unknownIn_of hb h')
  · exact refusedIn_removed hb h'

/-- **C79 (deprecated).** The commands listed as deprecated are those known to both versions whose class in the second one is
deprecated and not removed. Their lines are accepted and leave nothing to write. -/
theorem C79_deprecated {a b : Nat} (ha : Supported a) (hb : Supported b) (n : Str) :
    (n ∈ (verDiff (newHandler a) (newHandler b)).deprecated ↔
      KnownIn a n ∧ KnownIn b n ∧ (newHandler b).isDeprecated n = true ∧ (newHandler b).isRemoved n = false) ∧
    (n ∈ (verDiff (newHandler a) (newHandler b)).deprecated → IgnoredIn b n) := by
  have key : n ∈ (verDiff (newHandler a) (newHandler b)).deprecated ↔
      KnownIn a n ∧ KnownIn b n ∧ (newHandler b).isDeprecated n = true ∧ (newHandler b).isRemoved n = false := by
    simp only [verDiff, List.mem_filter, mem_commandSet ha, mem_commandSet hb, Bool.and_eq_true, Bool.not_eq_true', decide_eq_true_eq]
    tauto
  exact ⟨key, fun h => ignoredIn_deprecated hb (key.1 h).2.2.1 (key.1 h).2.2.2⟩

/-- **C79 (added).** The commands listed as added are those only the second version knows: the first one refuses every line of
them as unknown, whatever was read before. -/
theorem C79_added {a b : Nat} (ha : Supported a) (hb : Supported b) (n : Str) :
    (n ∈ (verDiff (newHandler a) (newHandler b)).added ↔ KnownIn b n ∧ ¬ KnownIn a n) ∧
    (n ∈ (verDiff (newHandler a) (newHandler b)).added → UnknownIn a n) := by
  have key : n ∈ (verDiff (newHandler a) (newHandler b)).added ↔ KnownIn b n ∧ ¬ KnownIn a n := by
    simp only [verDiff, mem_setMinus, mem_commandSet ha, mem_commandSet hb]
  exact ⟨key, fun h => unknownIn_of ha (key.1 h).2⟩

/-- **C79 (sorted).** The lists of commands are in strict order, so no name is listed twice. -/
theorem C79_sorted (f t : KsHandler) : (verDiff f t).removed.Pairwise (· < ·) ∧ (verDiff f t).deprecated.Pairwise (· < ·) ∧
    (verDiff f t).added.Pairwise (· < ·) ∧ ((verDiff f t).options.map (·.command)).Pairwise (· < ·) := by
  refine ⟨sortedSet_lt _, ((sortedSet_lt _).filter _).filter _, (sortedSet_lt _).filter _, ?_⟩
  simp only [verDiff, List.pairwise_map]
  refine List.Pairwise.filterMap _ ?_ ((sortedSet_lt _).filter _)
  intro x y hxy d hd e he
  have hc : ∀ {x : Str} {d : OptDiff}, optDiff f t x = some d → d.command = x := by
    intro x d hd
    unfold optDiff at hd
    split at hd
    · cases hd; rfl
    · cases hd
  rw [hc hd, hc he]; exact hxy

/-! ## The lists of options -/

theorem mem_optSet {x : Str} {l : List Action} : x ∈ optSet l ↔ ∃ a ∈ l, firstName a = x := by
  simp [optSet, mem_sortedSet]

theorem opOf_built {h : KsHandler} {n : Str} {p : OptParser} (hp : h.opOf n = some p) : p.Built := by
  have key : ∀ cls p, (classInfo cls).op = some p → p.Built := by
    intro cls p h
    unfold classInfo at h
    cases e : Cmd.classOps.lookup cls with
    | none => rw [e] at h; cases h
    | some i => rw [e] at h; exact Cmd.classOps_built _ (mem_of_lookup' e) p h
  unfold Handler.opOf at hp
  repeat' split at hp
  all_goals first | exact key _ _ hp | cases hp

/-- **C79 (options).** For a command that both versions know and that has a parser in both: a name listed as added is the first
name of an option of the second parser and of none of the first; a name listed as removed the other way round; a name listed as
deprecated is that of a deprecated option of the second. -/
theorem C79_options (f t : KsHandler) (d : OptDiff) (hd : d ∈ (verDiff f t).options) :
    ∃ p q, f.opOf d.command = some p ∧ t.opOf d.command = some q ∧ d.command ∈ commandSet f ∧ d.command ∈ commandSet t ∧
      ∀ o, (o ∈ d.added ↔ (∃ a ∈ q.actions, firstName a = o) ∧ ∀ a ∈ p.actions, firstName a ≠ o) ∧
        (o ∈ d.removed ↔ (∃ a ∈ p.actions, firstName a = o) ∧ ∀ a ∈ q.actions, firstName a ≠ o) ∧
        (o ∈ d.deprecated ↔ ∃ a ∈ q.actions, a.deprecated = true ∧ firstName a = o) := by
  simp only [verDiff, List.mem_filterMap, List.mem_filter, decide_eq_true_eq] at hd
  obtain ⟨n, ⟨h1, h2⟩, hd⟩ := hd
  unfold optDiff at hd
  split at hd
  · rename_i p q hp hq
    cases hd
    refine ⟨p, q, hp, hq, h1, h2, fun o => ?_⟩
    simp only [mem_setMinus, mem_optSet, List.mem_filter]
    refine ⟨?_, ?_, ?_⟩
    · simp
    · simp
    · constructor
      · rintro ⟨a, ⟨h, h'⟩, h''⟩; exact ⟨a, h, h', h''⟩
      · rintro ⟨a, h, h', h''⟩; exact ⟨a, ⟨h, h'⟩, h''⟩
  · cases hd

/-- **C79 (kept options).** An option of a command in the first version, by its first name, that is not listed as removed is
recognised by that very name by the parser of the second version, alone or with a value. -/
theorem C79_kept (f t : KsHandler) (d : OptDiff) (hd : d ∈ (verDiff f t).options) {p : OptParser} (hp : f.opOf d.command = some p) {a : Action} (ha : a ∈ p.actions)
    (hne : firstName a ≠ []) (hnr : firstName a ∉ d.removed) :
    ∃ q b, t.opOf d.command = some q ∧ b ∈ q.actions ∧ firstName b = firstName a ∧
      ∀ lineno v, q.parseOptional lineno (firstName a ++ valText v) = .ok (.O ⟨some b, v⟩) := by
  obtain ⟨p', q, hp', hq, -, -, h⟩ := C79_options f t d hd
  rw [hp] at hp'; cases hp'
  have := (h (firstName a)).2.1
  have hex : ∃ b ∈ q.actions, firstName b = firstName a := by
    by_contra hc
    exact hnr (this.2 ⟨⟨a, ha, rfl⟩, fun b hb he => hc ⟨b, hb, he⟩⟩)
  obtain ⟨b, hb, he⟩ := hex
  refine ⟨q, b, hq, hb, he, fun lineno v => ?_⟩
  have hbt := opOf_built hq
  refine C13_exact q hbt lineno _ b (hbt.wf.reg b hb _ ?_) v
  rw [← he]
  rw [← he] at hne
  unfold firstName at hne ⊢
  split
  · rename_i e; rw [e] at hne; exact absurd rfl hne
  · rename_i s t e; rw [e]; exact List.mem_cons_self

/-- **C79 (back).** Going back from the second version to the first swaps what is added and what is removed. -/
theorem C79_back (f t : KsHandler) (n : Str) : (optDiff f t n).map (fun d => (d.added, d.removed)) = (optDiff t f n).map fun d => (d.removed, d.added) := by
  unfold optDiff
  cases f.opOf n <;> cases t.opOf n <;> rfl

/-- **C79 (same).** A version compared with itself has nothing added and nothing removed. -/
theorem C79_same (h : KsHandler) : (verDiff h h).removed = [] ∧ (verDiff h h).added = [] ∧ ∀ d ∈ (verDiff h h).options, d.added = [] ∧ d.removed = [] := by
  have hs : ∀ l, setMinus l l = [] := by
    intro l
    rw [List.eq_nil_iff_forall_not_mem]
    intro x hx
    exact (mem_setMinus.1 hx).2 (mem_setMinus.1 hx).1
  refine ⟨?_, hs _, ?_⟩
  · rw [List.eq_nil_iff_forall_not_mem]
    intro x hx
    simp only [verDiff, mem_sortedSet, List.mem_append, List.mem_filter, hs] at hx
    rcases hx with ⟨-, hx⟩ | hx
    · cases e : h.isRemoved x <;> simp [e] at hx
    · simp at hx
  · intro d hd
    simp only [verDiff, List.mem_filterMap] at hd
    obtain ⟨n, -, hd⟩ := hd
    unfold optDiff at hd
    split at hd
    · rename_i p q hp hq
      rw [hp] at hq; cases hq
      cases hd
      exact ⟨hs _, hs _⟩
    · cases hd

/-- **C79 (codes).** The program ends with 0 or 1 for all options and never with an exception; it ends with 1 exactly if no list of
versions is asked for and a version is missing or not supported. -/
theorem C79_codes (o : VerDiffOpts) : ((ksverdiff o).1 = .code 0 ∨ (ksverdiff o).1 = .code 1) ∧ ((ksverdiff o).1 = .code 0 ↔
    o.listVersions = true ∨ (o.f ≠ [] ∧ o.t ≠ [] ∧ (∃ v, Version.makeVersion (.str o.f) = .ok (some v)) ∧ ∃ v, Version.makeVersion (.str o.t) = .ok (some v))) := by
  unfold ksverdiff
  by_cases hl : o.listVersions = true
  · simp [hl]
  · by_cases hf : o.f = []
    · simp [hl, hf]
    · by_cases ht : o.t = []
      · simp [hl, ht]
      · simp only [hl, hf, ht, or_self, if_false, ne_eq, not_false_eq_true, true_and]
        cases h1 : Version.makeVersion (.str o.f) with
        | error e =>
          obtain ⟨x, rfl⟩ := makeVersion_error h1
          simp
        | ok x =>
          cases x with
          | none => exact absurd h1 makeVersion_ne_none
          | some x =>
            cases h2 : Version.makeVersion (.str o.t) with
            | error e =>
              obtain ⟨x, rfl⟩ := makeVersion_error h2
              simp
            | ok y =>
              cases y with
              | none => exact absurd h2 makeVersion_ne_none
              | some y => simp

/-! ## Completion -/

/-- **C79 (first word).** While the first word is typed, the candidates are the names that begin with what is typed: those the
version knows and the commands of the shell. -/
theorem C79_first_word {v : Nat} (hv : Supported v) {line : Str} {b e : Nat} (hb : b = 0 ∨ strip (line.take b) = []) (hl : splitWs line ≠ []) (n : Str) :
    n ∈ initMatches (completionTable (newHandler v)) line b e ↔
      (KnownIn v n ∨ n ∈ shellCommands) ∧ (line.take e).drop b <+: n := by
  have hk : n ∈ (completionTable (newHandler v)).map (·.1) ↔ KnownIn v n ∨ n ∈ shellCommands := by
    rw [← mem_commandSet hv, commandSet, mem_sortedSet]
    have h1 : ((((newHandler v).commands.map fun x => (x.1, completionOpts ((newHandler v).opOf x.1) x.1)).map
        (fun x => if x.1 ∈ shellCommands then (x.1, []) else x)).map (·.1)) = (newHandler v).commands.map (·.1) := by
      rw [List.map_map, List.map_map]
      refine List.map_congr_left fun x _ => ?_
      simp only [Function.comp]
      split <;> rfl
    have h2 : (((newHandler v).commands.map fun x => (x.1, completionOpts ((newHandler v).opOf x.1) x.1)).map (·.1)) = (newHandler v).commands.map (·.1) := by
      rw [List.map_map]; rfl
    simp only [completionTable, List.map_append, List.mem_append]
    rw [h1, h2]
    simp only [List.map_map, Function.comp_def, List.map_id', List.mem_filter, decide_eq_true_eq]
    tauto
  unfold initMatches
  cases hs : splitWs line with
  | nil => exact absurd hs hl
  | cons p t =>
    simp only [hb, if_true]
    split
    · rename_i h0; rw [h0, hk]; simp
    · rw [List.mem_filter, hk, startsWith, List.isPrefixOf_iff_prefix]

/-- **C79 (empty line).** On an empty line every name is a candidate, in order. -/
theorem C79_empty_line (t : List (Str × List Str)) {line : Str} (hl : splitWs line = []) (b e : Nat) :
    initMatches t line b e = sortBy strLt (t.map (·.1)) := by
  unfold initMatches; rw [hl]

theorem lookup_completion (h : KsHandler) {n : Str} (hs : n ∉ shellCommands) {l : List Str} (hl : (completionTable h).lookup n = some l) :
    l = completionOpts (h.opOf n) n := by
  have := mem_of_lookup' hl
  simp only [completionTable, List.mem_append, List.mem_map, List.mem_filter] at this
  rcases this with ⟨x, ⟨y, hy, rfl⟩, hx⟩ | ⟨x, ⟨hx, -⟩, he⟩
  · simp only at hx
    split at hx
    · rename_i hsc
      have : y.1 = n := congrArg Prod.fst hx
      rw [this] at hsc; exact absurd hsc hs
    · have h1 : y.1 = n := congrArg Prod.fst hx
      have h2 := congrArg Prod.snd hx
      simp only [h1] at h2
      exact h2.symm
  · have : x = n := congrArg Prod.fst he
    rw [this] at hx; exact absurd hx hs

/-- **C79 (later words).** A candidate for a later word of a line of a command begins with what is typed, and the parser of the
command recognises it as the option it names, alone or with a value. -/
theorem C79_later_word (h : KsHandler) {line : Str} {b e : Nat} {n : Str} {ws : List Str} (hw : splitWs line = n :: ws) (hs : n ∉ shellCommands)
    (hb : b ≠ 0 ∧ strip (line.take b) ≠ []) {o : Str} (ho : o ∈ initMatches (completionTable h) line b e) :
    (line.take e).drop b <+: o ∧ ∃ p a, h.opOf n = some p ∧ a ∈ p.actions ∧ o ∈ a.opts ∧
      ∀ lineno v, p.parseOptional lineno (o ++ valText v) = .ok (.O ⟨some a, v⟩) := by
  unfold initMatches at ho
  rw [hw] at ho
  simp only [hb.1, hb.2, or_self, if_false] at ho
  cases hl : (completionTable h).lookup n with
  | none => rw [hl] at ho; cases ho
  | some l =>
    rw [hl] at ho
    have hle := lookup_completion h hs hl
    have hmem : o ∈ l ∧ (line.take e).drop b <+: o := by
      simp only at ho
      split at ho
      · rename_i h0; exact ⟨ho, by rw [h0]; exact List.nil_prefix⟩
      · rw [List.mem_filter, startsWith, List.isPrefixOf_iff_prefix] at ho; exact ho
    refine ⟨hmem.2, ?_⟩
    have h1 := hmem.1
    rw [hle] at h1
    unfold completionOpts at h1
    split at h1
    · cases h1
    · cases hp : h.opOf n with
      | none => rw [hp] at h1; cases h1
      | some p =>
        rw [hp] at h1
        obtain ⟨a, ha, hoa⟩ := List.mem_flatMap.1 h1
        have hbt := opOf_built hp
        exact ⟨p, a, rfl, ha, hoa, fun lineno v => C13_exact p hbt lineno _ a (hbt.wf.reg a ha _ hoa) v⟩

/-- **C79 (all options).** Every name, beginning with what is typed, of an option of the command is a candidate for a later word. -/
theorem C79_all_options {v : Nat} (hv : Supported v) {line : Str} {b e : Nat} {n : Str} {ws : List Str} (hw : splitWs line = n :: ws) (hk : KnownIn v n)
    (hdot : startsWith n c!"." = false) (hb : b ≠ 0 ∧ strip (line.take b) ≠ []) {p : OptParser} (hp : (newHandler v).opOf n = some p) {a : Action}
    (ha : a ∈ p.actions) {o : Str} (ho : o ∈ a.opts) (hpre : (line.take e).drop b <+: o) :
    o ∈ initMatches (completionTable (newHandler v)) line b e := by
  have hs : n ∉ shellCommands := by
    intro h
    simp only [shellCommands, List.mem_cons, List.not_mem_nil, or_false] at h
    rcases h with rfl | rfl | rfl <;> cases hdot
  have hmem : n ∈ (completionTable (newHandler v)).map (·.1) := by
    rw [← mem_commandSet hv, commandSet, mem_sortedSet] at hk
    obtain ⟨x, hx, rfl⟩ := List.mem_map.1 hk
    refine List.mem_map.2 ⟨(x.1, completionOpts ((newHandler v).opOf x.1) x.1), ?_, rfl⟩
    refine List.mem_append_left _ (List.mem_map.2 ⟨_, List.mem_map.2 ⟨x, hx, rfl⟩, ?_⟩)
    simp only [hs, if_false]
  cases hl : (completionTable (newHandler v)).lookup n with
  | none => exact absurd hmem (lookup_none_iff.1 hl)
  | some l =>
    have hle := lookup_completion _ hs hl
    have hol : o ∈ l := by
      rw [hle]
      unfold completionOpts
      rw [hdot, hp]
      exact List.mem_flatMap.2 ⟨a, ha, ho⟩
    unfold initMatches
    rw [hw]
    simp only [hb.1, hb.2, or_self, if_false, hl]
    split
    · exact hol
    · rw [List.mem_filter, startsWith, List.isPrefixOf_iff_prefix]; exact ⟨hol, hpre⟩

/-- The responses to one key press, for the states `0`, `1`, ..., as `readline` asks for them. -/
def responses (t : List (Str × List Str)) (line : Str) (b e : Nat) : Nat → List Str → List (Option Str) × List Str
  | 0, kept => ([], kept)
  | k + 1, kept =>
    let (r, kept) := responses t line b e k kept
    let (kept, x) := complete t kept line b e k
    (r ++ [x], kept)

/-- **C79 (states).** Whatever was kept from before, asking for one more state than there are candidates gives every candidate once
and in order, and then `None`. -/
theorem C79_states (t : List (Str × List Str)) (line : Str) (b e : Nat) (kept : List Str) :
    (responses t line b e ((initMatches t line b e).length + 1) kept).1 = (initMatches t line b e).map some ++ [none] := by
  have key : ∀ k, (responses t line b e (k + 1) kept) = ((List.range (k + 1)).map fun i => (initMatches t line b e)[i]?, initMatches t line b e) := by
    intro k
    induction k with
    | zero => simp [responses, complete, List.range_succ]
    | succ k ih =>
      rw [responses, ih]
      simp [complete, List.range_succ]
  rw [key]
  simp only [List.range_succ, List.map_append, List.map_cons, List.map_nil]
  congr 1
  · refine List.ext_getElem (by simp) fun i h1 h2 => ?_
    simp
  · simp

/-! ## Cases and findings -/

/-- The hypotheses are met: `F33` and `F34`. (A deprecated command and an added one are in the findings below.) -/
theorem C79_case : c!"deviceprobe" ∈ (verDiff (newHandler Version.F33) (newHandler Version.F34)).removed ∧
    optDiff (newHandler Version.F33) (newHandler Version.F34) c!"part" = some ⟨c!"part", [], [], [c!"--active"]⟩ ∧
    initMatches (completionTable (newHandler Version.F34)) c!" us" 1 3 = [c!"user"] ∧
    initMatches (completionTable (newHandler Version.F34)) c!"lang --a" 5 8 = [c!"--addsupport"] := by decide +kernel

/-- Finding: a command that comes back is not reported. `langsupport` is removed in `F7`, so every line of it is refused there; `FC3`
reads it; the comparison of `F7` with `FC3` does not list it. (It lists `lilo`.) -/
theorem C79_back_again : c!"lilo" ∈ (verDiff (newHandler Version.F7) (newHandler Version.FC3)).added ∧ (newHandler Version.F7).isRemoved c!"langsupport" = true ∧ (newHandler Version.FC3).isRemoved c!"langsupport" = false ∧
    c!"langsupport" ∉ (verDiff (newHandler Version.F7) (newHandler Version.FC3)).added := by decide +kernel

/-- Finding: a command is listed as deprecated again and again: also when a version is compared with itself. -/
theorem C79_deprecated_again : (verDiff (newHandler Version.F34) (newHandler Version.F34)).deprecated ≠ [] ∧
    (newHandler Version.F34).isDeprecated c!"autostep" = true := by decide +kernel

/-- Finding: the options of `url` are listed for `method` also. -/
theorem C79_method : (optDiff (newHandler Version.FC6) (newHandler Version.F13) c!"method").map (·.added) = some [c!"--proxy"] ∧
    (optDiff (newHandler Version.FC6) (newHandler Version.F13) c!"url").map (·.added) = some [c!"--proxy"] := by decide +kernel

/-- Finding: completion offers commands of which every line is refused. -/
theorem C79_offers_removed : c!"install" ∈ initMatches (completionTable (newHandler Version.F34)) c!"ins" 0 3 ∧ RefusedIn Version.F34 c!"install" :=
  ⟨by decide +kernel, refusedIn_removed (by decide +kernel) (by decide +kernel)⟩

end Ks
