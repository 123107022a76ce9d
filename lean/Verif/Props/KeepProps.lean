import Verif.Commands.PlainNormal1
import Verif.Commands.PlainNormal2
import Verif.Commands.PlainNormal3
import Verif.Props.SelfBackProps
import Verif.Props.StableLists
/-!
# C76: what a command without a data list writes is accepted and gives the same settings
-/
namespace Ks

open Cmd

/-! ## Specification -/

/-- A command, the versions from the first to the last one in which its text is read again, what is claimed of
its text, and the values after a line without options, by version. -/
structure Keeper where
  name : Str
  first : Nat := 0
  last : Nat := 1000000
  sheet : Nat → Sheet
  bases : List (Nat × Ns)

def keepers : List Keeper :=
  [{ name := c!"autopart", first := Version.F9, sheet := autopartSheet, bases := autopartKeepBases },
   { name := c!"autostep", sheet := autostepSheet, bases := autostepKeepBases },
   { name := c!"bootloader", first := Version.FC4, sheet := keepBootloaderSheet, bases := bootloaderKeepBases },
   { name := c!"clearpart", last := Version.F16, sheet := clearpartSheet, bases := clearpartKeepBases },
   { name := c!"eula", sheet := eulaSheet, bases := eulaKeepBases },
   { name := c!"harddrive", first := Version.F33, sheet := harddriveSheet, bases := harddriveKeepBases },
   { name := c!"ignoredisk", sheet := keepIgnorediskSheet, bases := ignorediskKeepBases },
   { name := c!"liveimg", sheet := liveimgSheet, bases := liveimgKeepBases },
   { name := c!"logging", sheet := loggingSheet, bases := loggingKeepBases },
   { name := c!"monitor", sheet := monitorSheet, bases := monitorKeepBases },
   { name := c!"nfs", sheet := nfsSheet, bases := nfsKeepBases },
   { name := c!"reqpart", sheet := reqpartSheet, bases := reqpartKeepBases },
   { name := c!"rescue", sheet := rescueSheet, bases := rescueKeepBases },
   { name := c!"selinux", sheet := keepSelinuxSheet, bases := selinuxKeepBases },
   { name := c!"services", sheet := servicesSheet, bases := servicesKeepBases },
   { name := c!"url", sheet := urlSheet, bases := urlKeepBases },
   { name := c!"url", first := Version.F18, sheet := urlMirrorSheet, bases := urlMirrorKeepBases },
   { name := c!"url", first := Version.F27, sheet := urlMetaSheet, bases := urlMetaKeepBases },
   { name := c!"xconfig", sheet := xconfigSheet, bases := xconfigKeepBases },
   { name := c!"zipl", sheet := ziplSheet, bases := ziplKeepBases }]

/-- Nothing is lost when the settings are written. -/
def KeepsAll (v : Nat) (n : Str) (d : Ns) : Prop :=
  ∃ x ∈ keepers, x.name = n ∧ (x.first ≤ v ∧ v ≤ x.last) ∧ ∃ base ∈ x.bases.lookup v, (x.sheet v).Plain d ∧ (x.sheet v).Lossless (keepNeeds n v) (keepFixed n v) base d

instance (v : Nat) (n : Str) (d : Ns) : Decidable (KeepsAll v n d) := by unfold KeepsAll; infer_instance

/-! ## The commands of the table -/

theorem keepers_normal : ∀ x ∈ keepers, (∀ v, (x.sheet v).names = [x.name]) ∧ ∀ y ∈ commandMaps, ∀ c, y.2.lookup x.name = some c → x.first ≤ y.1 → y.1 ≤ x.last →
    ¬ Command.IsDeprecated c → ¬ Command.IsRemoved c → ∃ base, x.bases.lookup y.1 = some base ∧ c.SelfNormal (x.sheet y.1) (keepNeeds x.name y.1) (keepFixed x.name y.1) base := by
  have hd : ∀ v, (keepIgnorediskSheet v).names = [c!"ignoredisk"] := fun v => by unfold keepIgnorediskSheet; split <;> rfl
  unfold keepers
  exact all_cons ⟨fun _ => rfl, keeps_autopart⟩ (all_cons ⟨fun _ => rfl, keeps_autostep⟩ (all_cons ⟨fun _ => rfl, keeps_bootloader⟩ (all_cons ⟨fun _ => rfl, keeps_clearpart⟩
    (all_cons ⟨fun _ => rfl, keeps_eula⟩ (all_cons ⟨fun _ => rfl, keeps_harddrive⟩ (all_cons ⟨hd, keeps_ignoredisk⟩ (all_cons ⟨fun _ => rfl, keeps_liveimg⟩
    (all_cons ⟨fun _ => rfl, keeps_logging⟩ (all_cons ⟨fun _ => rfl, keeps_monitor⟩ (all_cons ⟨fun _ => rfl, keeps_nfs⟩ (all_cons ⟨fun _ => rfl, keeps_reqpart⟩
    (all_cons ⟨fun _ => rfl, keeps_rescue⟩ (all_cons ⟨fun _ => rfl, keeps_selinux⟩ (all_cons ⟨fun _ => rfl, keeps_services⟩ (all_cons ⟨fun _ => rfl, keeps_url⟩
    (all_cons ⟨fun _ => rfl, keeps_urlMirror⟩ (all_cons ⟨fun _ => rfl, keeps_urlMeta⟩ (all_cons ⟨fun _ => rfl, keeps_xconfig⟩ (all_cons ⟨fun _ => rfl, keeps_zipl⟩
    (List.forall_mem_nil _))))))))))))))))))))

theorem keepers_noList : keepers.all (fun x => commandMaps.all fun y => match y.2.lookup x.name with | some c => !c.hasList { attrs := {} } | none => true) = true := by decide +kernel

theorem clears_quiet {b b' : Option Bool} (h : Off b) (h' : Off b') : Clears (quiet b b') := by
  refine ⟨fun a ha => ?_, fun a ha => ?_⟩
  · have : a ≠ c!"mount" ∧ a ≠ c!"reqpart" := by revert a; decide
    simp [quiet, this.1, this.2]
  · simp only [List.mem_cons, List.not_mem_nil, or_false] at ha
    rcases ha with rfl | rfl
    · rcases h with rfl | rfl <;> simp [quiet]
    · rcases h' with rfl | rfl <;> simp [quiet]

/-! ## Lines -/

/-- What a line does to a command without a data list that has read none. -/
theorem keep_dispatch {v : Nat} (hv : Supported v) {h : Handler CState Ns} (s : Session v h) {n : Str} (hu : Unread h n) {c : Command} (hc : (commandMap v).lookup n = some c)
    (hli : c.hasList { attrs := {} } = false) :
    ∃ r o, h.Serves n r ∧ h.heap[r]? = some o ∧ o.cls = c ∧ ∀ (l : Nat) (args : List Str) (line : Str), ∃ i, i.attrs.attrs = c.init.attrs ∧ i = o.inst.noted n line l ∧
      (c.parse (h.setInst r o i).seenAttr args i).1.seen = true ∧ ∀ x, (c.parse (h.setInst r o i).seenAttr args i).2 = .ok x →
      (h.dispatch l (n :: args) line).2 = none ∧ objectOf (h.dispatch l (n :: args) line).1 n = some ⟨c, (c.parse (h.setInst r o i).seenAttr args i).1⟩ := by
  obtain ⟨o, ho, hs⟩ := Option.map_eq_some_iff.1 hu
  have inv := session_inv hv s
  have hmap := supported_mapOk hv
  have hL := session_lists hv (mem_of_lookup' hc)
  unfold objectOf at ho
  split at ho
  · rename_i r hlk
    obtain ⟨o', ho', hmem⟩ := inv.served n r hlk
    rw [ho] at ho'; cases ho'
    have hoc : o.cls = c := by
      have := (mem_iff_lookup hmap.dict).1 hmem
      rw [hc] at this; cases this; rfl
    obtain ⟨I, hI⟩ := hmap.ok _ hmem
    have hfresh : o.inst.attrs.attrs = o.cls.init.attrs := by rw [fresh_session hv s r o ho hs]; rfl
    refine ⟨r, o, hlk, ho, hoc, fun l args line => ⟨o.inst.noted n line l, ?_, rfl, ?_, fun x hx => ?_⟩⟩
    · show o.inst.attrs.attrs = _
      rw [hfresh, hoc]
    · have hst := hasStorage_setInst ho (o.inst.noted n line l) (inv.storage hmap)
      have hmark := hI.mark _ args (o.inst.noted n line l) hst ((inv.objs r o ho).2 I _ hI)
      rw [hoc] at hmark
      exact hmark
    · have hd := dispatch_eq hlk ho l args line
      simp only at hd
      rw [hoc] at hd
      generalize c.parse (h.setInst r o (o.inst.noted n line l)).seenAttr args (o.inst.noted n line l) = p at hd hx ⊢
      obtain ⟨j, y⟩ := p
      cases hx
      rw [hd]
      refine ⟨rfl, ?_⟩
      have hr : r < h.heap.length := (List.getElem?_eq_some_iff.1 ho).1
      have hst : CmdClass.stored c (j, .ok x) = j := by
        cases x with
        | none => rfl
        | some d =>
          simp only [CmdClass.stored]
          rw [hL.one j { attrs := {} }, hli]; rfl
      unfold objectOf
      rw [show (h.setInst r o (CmdClass.stored c (j, .ok x))).commands.lookup n = some (some r) from hlk]
      simp only [Handler.setInst, List.getElem?_set_self hr, hst]
      rw [← hoc]
  · cases ho

/-! ## C76 -/

/-- C76: take a command of the table `keepers` that is neither deprecated nor removed, and any handler that has read any lines, but
none of this command.  Let it read and accept a line of the command, such that nothing of the settings is lost when they are
written (`KeepsAll`).  The text of the command is its name and arguments.  Any other handler of the version that has read any
lines, but none of this command or of one that excludes it, accepts these words as a line.  The command then has the same
attributes with the same values, and writes the same text. -/
theorem C76_self_accepted {v : Nat} (hv : Supported v) {n : Str} (hd : ¬ Deprecated v n) (hr : ¬ Removed v n) {h : Handler CState Ns} (s : Session v h) (hu : Unread h n)
    {l : Nat} {args : List Str} {line : Str} (ok : (h.dispatch l (n :: args) line).2 = none) (hk : KeepsAll v n (attrsOf (h.dispatch l (n :: args) line).1 n)) :
    ∃ args', shlexSplit (textOf (h.dispatch l (n :: args) line).1 n) true = .ok (n :: args') ∧
      ∀ h', Session v h' → FirstOf h' n → ∀ l' line', (h'.dispatch l' (n :: args') line').2 = none ∧
        (∀ k, (attrsOf (h'.dispatch l' (n :: args') line').1 n).get k = (attrsOf (h.dispatch l (n :: args) line).1 n).get k) ∧
        textOf (h'.dispatch l' (n :: args') line').1 n = textOf (h.dispatch l (n :: args) line).1 n := by
  match hc : (commandMap v).lookup n with
  | none =>
    obtain ⟨o, ho, -⟩ := Option.map_eq_some_iff.1 hu
    have := ((session_inv hv s).names n).2 hc
    simp [objectOf, this] at ho
  | some c =>
    obtain ⟨hd', hr'⟩ := not_stage hv hc hd hr
    obtain ⟨x, hx, rfl, ⟨hf, hl⟩, base, hb, hp, hL⟩ := hk
    obtain ⟨hnm, hN⟩ := keepers_normal x hx
    obtain ⟨base', hb', hN⟩ := hN _ (supported_mem hv) c hc hf hl hd' hr'
    rw [Option.mem_def] at hb
    rw [hb] at hb'
    cases hb'
    have hli : c.hasList { attrs := {} } = false := by
      have := List.all_eq_true.1 (List.all_eq_true.1 keepers_noList x hx) _ (supported_mem hv)
      rw [hc] at this
      simpa using this
    obtain ⟨r, o, hs, ho, hoc, hline⟩ := keep_dispatch hv s hu hc hli
    obtain ⟨i, h1, hi, h2, h3⟩ := hline l args line
    obtain ⟨y, hy⟩ : ∃ y, (c.parse (h.setInst r o i).seenAttr args i).2 = .ok y := by
      have hd := dispatch_eq hs ho l args line
      simp only at hd
      rw [hd, hoc, ← hi] at ok
      generalize c.parse (h.setInst r o i).seenAttr args i = p at ok
      obtain ⟨j, y⟩ := p
      cases y with
      | error e => cases ok
      | ok y => exact ⟨y, rfl⟩
    obtain ⟨-, h4⟩ := h3 y hy
    simp only [attrsOf, textOf, h4] at hp hL ⊢
    obtain ⟨m, hm, args', h5, h6⟩ := hN _ args i y h1 hy hp hL
    rw [hnm, List.mem_singleton] at hm
    subst hm
    refine ⟨args', h5, fun h' s' hf' l' line' => ?_⟩
    obtain ⟨r', o', hs', ho', hoc', hline'⟩ := keep_dispatch hv s' hf'.1 hc hli
    obtain ⟨i', g1, -, g2, g3⟩ := hline' l' args' line'
    obtain ⟨b, b', hb1, hb2, hq⟩ := first_quiet hv s' hf' hs' ho'
    rw [hoc'] at hq
    rw [hq] at g2 g3
    obtain ⟨x', k1, k2, k3⟩ := h6 (quiet b b') i' (clears_quiet hb1 hb2) g1
    obtain ⟨g4, g5⟩ := g3 x' k1
    refine ⟨g4, ?_, ?_⟩
    · simp only [g5]
      exact fun k => (selfOf_same k2 (by rw [g2, h2]) k (by simp)).symm
    · simp only [g5]
      exact k3 (by rw [g2, h2])

/-! ## The text is stable -/

/-- The text is one line, after comments. -/
def OneCommand (text : Str) : Prop :=
  text.getLast? = some '\n' ∧ (∀ l ∈ (splitLines text).dropLast, headLine l = true) ∧ ∀ l ∈ (splitLines text).getLast?, isBlankOrComment l = false

instance (text : Str) : Decidable (OneCommand text) := by unfold OneCommand; infer_instance

theorem lex_headings {ds : List Str} (h : ∀ l ∈ ds, headLine l = true) (rest : Str) : shlexSplit (ds.flatten ++ rest) true = shlexSplit rest true := by
  induction ds with
  | nil => rfl
  | cons d ds ih =>
    rw [List.flatten_cons, List.append_assoc, lex_heading (headLine_facts (h d (by simp))).1]
    exact ih fun l hl => h l (List.mem_cons_of_mem _ hl)

theorem headLine_item {l : Str} (h : headLine l = true) : lineItem l = .skip l ∧ SkipLine l ∧ l.take 10 ≠ c!"#platform=" := by
  obtain ⟨-, f1, -, -, f4⟩ := headLine_facts h
  have hsk : SkipLine l := by
    obtain ⟨t, rfl⟩ := List.head?_eq_some_iff.1 f1
    exact ⟨by simp, by simp [isBlankOrComment, lstrip, show isSpace '#' = false by decide]⟩
  exact ⟨by simp only [lineItem, hsk.2, if_true], hsk, f4⟩

theorem runH_skips {ds : List Str} (k : Nat) (h : Handler CState Ns) : runH k (ds.map .skip) h = (h, none) := by
  induction ds generalizing k with
  | nil => rfl
  | cons d ds ih => exact ih (k + 1)

theorem oneCommand_items {text : Str} (h : OneCommand text) {ws : List Str} (hw : shlexSplit text true = .ok ws) :
    ∃ (ds : List Str) (l : Str), lineItems text = ds.map .skip ++ [.cmd l ws] ∧ (∀ d ∈ ds, SkipLine d ∧ d.take 10 ≠ c!"#platform=") ∧ isBlankOrComment l = false ∧ shlexSplit l true = .ok ws := by
  obtain ⟨h1, h2, h3⟩ := h
  have hfl := splitLines_flatten text
  rcases List.eq_nil_or_concat (splitLines text) with hn | ⟨ds, l, hds⟩
  · rw [hn] at hfl
    rw [← hfl] at h1
    cases h1
  · rw [List.concat_eq_append] at hds
    rw [hds, List.dropLast_concat] at h2
    rw [hds, List.getLast?_concat] at h3
    have hb := h3 l rfl
    rw [hds, List.flatten_append, List.flatten_singleton] at hfl
    have hl : shlexSplit l true = .ok ws := by
      rw [← hfl, lex_headings h2] at hw
      exact hw
    refine ⟨ds, l, ?_, fun d hd => (headLine_item (h2 d hd)).2, hb, hl⟩
    unfold lineItems
    rw [hds, List.map_append, List.map_congr_left fun d hd => (headLine_item (h2 d hd)).1]
    simp only [List.map_cons, List.map_nil, lineItem, hb, hl]
    rfl

/-- C76: after such a line, the text of the command is stable if it is one line after comments. -/
theorem C76_stable {v : Nat} (hv : Supported v) {n : Str} (hd : ¬ Deprecated v n) (hr : ¬ Removed v n) {h : Handler CState Ns} (s : Session v h) (hu : Unread h n)
    {l : Nat} {args : List Str} {line : Str} (ok : (h.dispatch l (n :: args) line).2 = none) (hk : KeepsAll v n (attrsOf (h.dispatch l (n :: args) line).1 n))
    (hone : OneCommand (textOf (h.dispatch l (n :: args) line).1 n)) : StableText v n (textOf (h.dispatch l (n :: args) line).1 n) := by
  obtain ⟨args', h1, h2⟩ := C76_self_accepted hv hd hr s hu ok hk
  obtain ⟨x, hx, rfl, -⟩ := hk
  generalize textOf (h.dispatch l (x.name :: args) line).1 x.name = text at *
  obtain ⟨ds, ln, e1, e2, e3, e4⟩ := oneCommand_items hone h1
  have hname : ∃ ch t, x.name = ch :: t ∧ ch ≠ '%' := by
    have : ∀ x ∈ keepers, ∃ ch t, x.name = ch :: t ∧ ch ≠ '%' := by
      unfold keepers
      iterate 20 refine all_cons ⟨_, _, rfl, by decide⟩ ?_
      exact List.forall_mem_nil _
    exact this x hx
  have hfirst : FirstOf (newHandler v) x.name := by
    refine ⟨?_, new_noRivals hv _⟩
    obtain ⟨c, hc, -⟩ := unread_object hv s hu
    obtain ⟨r, g1, g2⟩ := new_object hv hc
    unfold Unread objectOf
    rw [show (newHandler v).commands.lookup x.name = some (some r) from g1]
    simp only [g2, Option.map_some]
    exact congrArg some (new_obj hv g2).1
  obtain ⟨k1, -, k3⟩ := h2 _ .new hfirst (ds.length + 1) ln
  have hrun : runH 0 (lineItems text) (newHandler v) = (((newHandler v).dispatch (ds.length + 1) (x.name :: args') ln).1, none) := by
    rw [e1, runH_append (runH_skips 0 _), List.length_map, Nat.zero_add]
    unfold runH
    rw [runCommands]
    split
    · rename_i g hg
      rw [hg]; rfl
    · rename_i g e hg
      rw [hg] at k1; cases k1
  refine ⟨.inr hone.1, ?_, ?_, ?_⟩
  · rw [e1]
    intro it hit
    rcases List.mem_append.1 hit with hit | hit
    · obtain ⟨d, hd, rfl⟩ := List.mem_map.1 hit
      exact e2 d hd
    · rw [List.mem_singleton] at hit
      subst hit
      obtain ⟨ch, t, hn, hch⟩ := hname
      exact ⟨⟨e3, e4, ch, t, args', by rw [hn], hch⟩, rfl⟩
  · exact congrArg Prod.snd hrun
  · rw [show (runCommands Handler.dispatch 0 (lineItems text) (newHandler v)).1 = _ from congrArg Prod.fst hrun]
    exact k3

/-! ## Whole files -/

/-- Of the lines, one is a line of the command, and the command accepted it. -/
def OneLineOf (v : Nat) (ls : List (Nat × List Str × Str)) (n : Str) : Prop :=
  ∃ before l args line after, ls = before ++ (l, n :: args, line) :: after ∧ ((readLines v before).dispatch l (n :: args) line).2 = none ∧
    ∀ x ∈ before ++ after, ∀ m ∈ x.2.1.head?, ¬ SameObject v m n

theorem other_line {v : Nat} {h : Handler CState Ns} (hsh : SameShape (newHandler v) h) {n : Str} {x : Nat × List Str × Str} (hx : ∀ m ∈ x.2.1.head?, ¬ SameObject v m n) :
    objectOf (h.dispatch x.1 x.2.1 x.2.2).1 n = objectOf h n := by
  obtain ⟨l, ws, line⟩ := x
  cases ws with
  | nil => rfl
  | cons m args =>
    have hne : h.commands.lookup m ≠ h.commands.lookup n := by
      rw [hsh.commands]
      exact hx m (by simp)
    match hlk : h.commands.lookup m with
    | none => rw [C48_unknown h l m args line hlk]
    | some none => rw [C48_masked h l m args line hlk]
    | some (some r) =>
      cases ho : h.heap[r]? with
      | none => simp only [Handler.dispatch, hlk, ho]
      | some o =>
        have hd := dispatch_eq hlk ho l args line
        simp only at hd ⊢
        rw [hd]
        unfold objectOf
        simp only [Handler.setInst]
        split
        · rename_i r' hr'
          rw [hr', hlk] at hne
          rw [List.getElem?_set_ne (fun e => hne (by rw [e]))]
        · rfl

theorem other_lines {v : Nat} {h : Handler CState Ns} (hsh : SameShape (newHandler v) h) {n : Str} {ls : List (Nat × List Str × Str)}
    (hx : ∀ x ∈ ls, ∀ m ∈ x.2.1.head?, ¬ SameObject v m n) : objectOf (ls.foldl (fun h l => (h.dispatch l.1 l.2.1 l.2.2).1) h) n = objectOf h n := by
  induction ls generalizing h with
  | nil => rfl
  | cons x ls ih =>
    rw [List.foldl_cons, ih (hsh.trans (dispatch_shape h x.1 x.2.1 x.2.2)) fun y hy => hx y (List.mem_cons_of_mem _ hy)]
    exact other_line hsh (hx x (by simp))

/-- C76: let a handler read lines, of which one is a line of the command, and is accepted.  If nothing of the settings is lost when they
are written, and the text is one line after comments, the text is stable. -/
theorem C76_one_line {v : Nat} (hv : Supported v) {n : Str} (hd : ¬ Deprecated v n) (hr : ¬ Removed v n) {c : Command} (hc : (commandMap v).lookup n = some c)
    {ls : List (Nat × List Str × Str)} (h1 : OneLineOf v ls n) (hk : KeepsAll v n (attrsOf (readLines v ls) n)) (hone : OneCommand (textOf (readLines v ls) n)) :
    StableText v n (textOf (readLines v ls) n) := by
  obtain ⟨before, l, args, line, after, rfl, ok, hoth⟩ := h1
  have hs := readLines_session v before
  have e1 : objectOf (readLines v before) n = objectOf (newHandler v) n := other_lines (.refl _) fun x hx => hoth x (by simp [hx])
  have e2 : objectOf (readLines v (before ++ (l, n :: args, line) :: after)) n = objectOf ((readLines v before).dispatch l (n :: args) line).1 n := by
    unfold readLines
    rw [List.foldl_append, List.foldl_cons]
    exact other_lines ((readLines_shape v before).trans (dispatch_shape _ l (n :: args) line)) fun x hx => hoth x (by simp [hx])
  have hu : Unread (readLines v before) n := by
    obtain ⟨r, g1, g2⟩ := new_object hv hc
    unfold Unread
    rw [e1]
    unfold objectOf
    rw [show (newHandler v).commands.lookup n = some (some r) from g1]
    simp only [g2, Option.map_some]
    exact congrArg some (new_obj hv g2).1
  simp only [attrsOf, textOf, e2] at hk hone ⊢
  exact C76_stable hv hd hr hs hu ok hk hone

theorem stages_unwritten : (commandMaps.all fun m => m.2.all fun x =>
    x.2.prio.isNone || !(deprecatedIn.any fun p => p.1 == m.1 && p.2.contains x.1) && !(removedIn.any fun p => p.1 == m.1 && p.2.contains x.1)) = true := by decide +kernel

theorem written_stage {v : Nat} (hv : Supported v) {n : Str} {c : Command} (hc : (commandMap v).lookup n = some c) (hp : c.prio ≠ none) : ¬ Deprecated v n ∧ ¬ Removed v n := by
  have := List.all_eq_true.1 (List.all_eq_true.1 stages_unwritten _ (supported_mem hv)) _ (mem_of_lookup' hc)
  have hn : c.prio.isNone = false := by cases h : c.prio <;> simp_all
  simp only [hn, Bool.false_or, Bool.and_eq_true, Bool.not_eq_true', List.any_eq_false, beq_iff_eq, List.contains_eq_mem, decide_eq_true_eq, not_and] at this
  exact ⟨fun ⟨l, h1, h2⟩ => this.1 _ h1 rfl h2, fun ⟨l, h1, h2⟩ => this.2 _ h1 rfl h2⟩

/-- C76: a handler reads lines.  Each command that has read one is of one of three kinds.  It is a command of the table `lossless`
whose objects lose nothing and are written on one line each.  Or it is a command of the table `keepers` that has read and accepted one
line, whose settings lose nothing and are written on one line after comments.  Or it has a stable text.  No text is next to
one of a command that excludes it.  Then the whole text is read without an exception, and written again as it is. -/
theorem C76_file {v : Nat} (hv : Supported v) (hl : v ∉ liloVersions) (ls : List (Nat × List Str × Str))
    (hst : ∀ n c, (commandMap v).lookup n = some c → c.prio ≠ none → ¬ Unread (readLines v ls) n →
      (ListCommand v n ∧ n ∈ lossless.map (·.1) ∧ ∀ d ∈ dataOf (readLines v ls) n, WritesAll v n d ∧ OneLine v n d) ∨
      (OneLineOf v ls n ∧ KeepsAll v n (attrsOf (readLines v ls) n) ∧ OneCommand (textOf (readLines v ls) n)) ∨ StableText v n (textOf (readLines v ls) n))
    (hR : ∀ n, textOf (readLines v ls) n ≠ [] → ∀ a ∈ rivals n, textOf (readLines v ls) a = []) (k : Nat) :
    let r := runCommands Handler.dispatch k (lineItems (readLines v ls).str) (newHandler v)
    r.2 = none ∧ r.1.str = (readLines v ls).str := by
  refine C75_lists_file hv hl ls (fun n c hc hp hu => ?_) hR k
  rcases hst n c hc hp hu with h1 | ⟨h1, h2, h3⟩ | h1
  · exact .inl h1
  · obtain ⟨hd, hr⟩ := written_stage hv hc hp
    exact .inr (C76_one_line hv hd hr hc h1 h2 h3)
  · exact .inr h1

/-! ### The hypotheses can be met -/

/-- Lines of the commands of the table. -/
def keepLines : List (Nat × List Str) :=
  [(Version.F34, [c!"autopart", c!"--type=lvm", c!"--encrypted", c!"--passphrase=a b", c!"--luks-version=luks2", c!"--nohome"]),
   (Version.F10, [c!"autostep", c!"--autoscreenshot"]),
   (Version.F34, [c!"bootloader", c!"--location=mbr", c!"--append=a b", c!"--password=x", c!"--timeout=5", c!"--boot-drive=sda", c!"--leavebootorder"]),
   (Version.F10, [c!"bootloader", c!"--md5pass=x", c!"--driveorder=sda,sdb"]),
   (Version.F16, [c!"clearpart", c!"--drives=sda,sdb", c!"--initlabel", c!"--linux"]),
   (Version.F34, [c!"eula", c!"--agreed"]),
   (Version.F34, [c!"harddrive", c!"--partition=sda1", c!"--dir=/a"]),
   (Version.F34, [c!"ignoredisk", c!"--only-use=sda,sdb"]),
   (Version.F7, [c!"ignoredisk", c!"--drives=sda"]),
   (Version.F14, [c!"ignoredisk", c!"--interactive"]),
   (Version.F34, [c!"liveimg", c!"--url=u", c!"--proxy=p", c!"--noverifyssl", c!"--checksum=c"]),
   (Version.F10, [c!"logging", c!"--level=debug", c!"--host=h", c!"--port=1"]),
   (Version.F7, [c!"monitor", c!"--hsync=a", c!"--noprobe"]),
   (Version.F34, [c!"nfs", c!"--server=s", c!"--dir=/d", c!"--opts=o"]),
   (Version.F34, [c!"reqpart", c!"--add-boot"]),
   (Version.F34, [c!"rescue", c!"--nomount"]),
   (Version.F34, [c!"selinux", c!"--permissive"]),
   (Version.F34, [c!"services", c!"--disabled=a,b", c!"--enabled=c"]),
   (Version.F34, [c!"url", c!"--url=u", c!"--noverifyssl", c!"--sslcacert=x"]),
   (Version.F34, [c!"url", c!"--mirrorlist=u", c!"--proxy=p"]),
   (Version.F34, [c!"url", c!"--metalink=u"]),
   (Version.F34, [c!"xconfig", c!"--defaultdesktop=GNOME", c!"--startxonboot"]),
   (Version.F34, [c!"zipl", c!"--secure-boot"])]

theorem keepLines_all : keepLines.all (fun p =>
    let h := newHandler p.1
    let n := p.2.headD []
    let r := h.dispatch 1 p.2 []
    decide (FirstOf h n) && decide (¬ Deprecated p.1 n) && decide (¬ Removed p.1 n) && decide (r.2 = none) && decide (KeepsAll p.1 n (attrsOf r.1 n)) &&
      decide (OneCommand (textOf r.1 n))) = true := by decide +kernel

/-- A file for `C76_file`: lists that lose nothing, commands that have read one line, and one whose text is stable. -/
def keepFile : List (Nat × List Str × Str) :=
  [(1, [c!"url", c!"--url=u", c!"--proxy=p"], []), (2, [c!"lang", c!"en_US"], []), (3, [c!"part", c!"/", c!"--size=1", c!"--ondisk=sda"], []),
   (4, [c!"bootloader", c!"--append=a b"], []), (6, [c!"user", c!"--name=joe"], []), (7, [c!"part", c!"/home", c!"--size=2", c!"--grow"], [])]

theorem keepFile_url : OneLineOf Version.F34 keepFile c!"url" ∧ OneLineOf Version.F34 keepFile c!"bootloader" :=
  ⟨⟨[], 1, [c!"--url=u", c!"--proxy=p"], [], keepFile.drop 1, rfl, by decide +kernel, by decide +kernel⟩,
   ⟨keepFile.take 3, 4, [c!"--append=a b"], [], keepFile.drop 4, rfl, by decide +kernel, by decide +kernel⟩⟩

theorem keepFile_kinds :
    let h := readLines Version.F34 keepFile
    ((commandMap Version.F34).all fun x => x.2.prio == none || decide (Unread h x.1) ||
      decide (ListCommand Version.F34 x.1 ∧ x.1 ∈ lossless.map (·.1) ∧ ∀ d ∈ dataOf h x.1, WritesAll Version.F34 x.1 d ∧ OneLine Version.F34 x.1 d) ||
      (decide (x.1 = c!"url" ∨ x.1 = c!"bootloader") && decide (KeepsAll Version.F34 x.1 (attrsOf h x.1) ∧ OneCommand (textOf h x.1))) ||
      (decide (x.1 = c!"lang") && decide (StableText Version.F34 x.1 (textOf h x.1)))) = true := by decide +kernel

/-- The settings may be written on more than one line, and then they are not accepted again. -/
theorem C76_two_lines :
    let h := readLines Version.F34 [(1, [c!"bootloader", c!"--append=a\nb"], [])]
    KeepsAll Version.F34 c!"bootloader" (attrsOf h c!"bootloader") ∧ ¬ OneCommand (textOf h c!"bootloader") ∧
    ¬ StableText Version.F34 c!"bootloader" (textOf h c!"bootloader") := by decide +kernel

/-- The line has to be accepted: `autopart` stores its options before it compares them, and it refuses a second line whose option does not go
with one of the first.  Who goes on after the exception writes both, and that is refused (/repo/pykickstart/commands/autopart.py:414-425). -/
theorem C76_refused :
    let a := [c!"autopart", c!"--type=btrfs"]
    let b := [c!"autopart", c!"--fstype=ext4"]
    let h := readLines Version.F34 [(1, a, []), (2, b, [])]
    ((newHandler Version.F34).dispatch 1 a []).2 = none ∧ (((newHandler Version.F34).dispatch 1 a []).1.dispatch 2 b []).2 ≠ none ∧
    KeepsAll Version.F34 c!"autopart" (attrsOf h c!"autopart") ∧ OneCommand (textOf h c!"autopart") ∧
    textOf h c!"autopart" = c!"autopart --type=btrfs --fstype=ext4\n" ∧ ¬ StableText Version.F34 c!"autopart" (textOf h c!"autopart") := by decide +kernel

end Ks
