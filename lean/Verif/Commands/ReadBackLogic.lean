import Verif.Commands.ReadBackPlain
/-!
# From the check of a template to the command classes
-/
namespace Ks

/-! ## What `parse` methods do with the values of the options -/

/-- The namespace is what the option parser returned, except for the attributes in `skip`. -/
def NsBy (op : OptParser) (skip : List Str) (n : Nat) (args : List Str) (ns' : Ns) : Prop :=
  ∃ ns ex, op.parseKnown (some (n : Int)) args = .ok (ns, ex) ∧ ns'.keys.Nodup ∧ ∀ k, k ∉ skip → ns'.get k = ns.get k

/-- The object holds what the option parser returned, except for the attributes in `skip`. -/
def ParsedBy (op : OptParser) (init : Ns) (skip : List Str) (n : Nat) (args : List Str) (d : Ns) : Prop :=
  ∃ ns ex, op.parseKnown (some (n : Int)) args = .ok (ns, ex) ∧ ∀ k, k ∉ skip → d.get k = (setToObj ns init).get k

variable {op : OptParser} {init d e ns : Ns} {skip : List Str} {n : Nat} {args : List Str}

theorem nsBy_known {r : Ns × List Str} (h : op.parseKnown (some (n : Int)) args = .ok r) : NsBy op skip n args r.1 :=
  ⟨r.1, r.2, h, C16_known_keys _ _ _ _ _ h, fun _ _ => rfl⟩

theorem nsBy_args {r : Ns} (h : op.parseArgs (some (n : Int)) args = .ok r) : NsBy op skip n args r := by
  unfold OptParser.parseArgs at h
  split at h
  · cases h
  · rename_i ns ex hk
    split at h
    · cases h
    · injection h with h
      subst h
      exact nsBy_known hk

theorem NsBy.set (h : NsBy op skip n args ns) {k : Str} (hk : k ∈ skip) (v : Val) : NsBy op skip n args (ns.set k v) := by
  obtain ⟨ns0, ex, h1, h2, h3⟩ := h
  refine ⟨ns0, ex, h1, Ns.nodup_set h2 _ _, fun k' hk' => ?_⟩
  have hne : k ≠ k' := fun e => hk' (by rw [← e]; exact hk)
  rw [Ns.get_set_ne _ _ hne, h3 k' hk']

theorem NsBy.ite {c : Prop} [Decidable c] {a b : Ns} (ha : NsBy op skip n args a) (hb : NsBy op skip n args b) : NsBy op skip n args (if c then a else b) := by
  split <;> assumption

theorem NsBy.obj (h : NsBy op skip n args ns) : ParsedBy op init skip n args (setToObj ns init) := by
  obtain ⟨ns0, ex, h1, h2, h3⟩ := h
  refine ⟨ns0, ex, h1, fun k hk => ?_⟩
  rw [C16_set_to_obj _ _ h2, C16_set_to_obj _ _ (C16_known_keys _ _ _ _ _ h1), h3 k hk]

theorem ParsedBy.set (h : ParsedBy op init skip n args d) {k : Str} (hk : k ∈ skip) (v : Val) : ParsedBy op init skip n args (d.set k v) := by
  obtain ⟨ns0, ex, h1, h3⟩ := h
  refine ⟨ns0, ex, h1, fun k' hk' => ?_⟩
  have hne : k ≠ k' := fun e => hk' (by rw [← e]; exact hk)
  rw [Ns.get_set_ne _ _ hne, h3 k' hk']

theorem ParsedBy.ite {c : Prop} [Decidable c] {a b : Ns} (ha : ParsedBy op init skip n args a) (hb : ParsedBy op init skip n args b) :
    ParsedBy op init skip n args (if c then a else b) := by
  split <;> assumption

theorem ParsedBy.mono {skip' : List Str} (h : ParsedBy op init skip n args d) (hs : ∀ k ∈ skip, k ∈ skip') : ParsedBy op init skip' n args d := by
  obtain ⟨ns0, ex, h1, h3⟩ := h
  exact ⟨ns0, ex, h1, fun k' hk' => h3 k' fun e => hk' (hs _ e)⟩

/-- Follow the program. -/
syntax "parsed_steps" : tactic
macro_rules | `(tactic| parsed_steps) => `(tactic|
  repeat' (first | rule_when | (with_reducible apply post_condT) | (with_reducible apply post_pure) | post_step | (intro _) | extract_lets))

/-- Close a goal about the object that is returned. -/
syntax "parsed_close" : tactic
macro_rules | `(tactic| parsed_close) => `(tactic|
  first
  | exact trivial
  | (repeat' (first
      | assumption
      | (with_reducible apply ParsedBy.ite)
      | (with_reducible refine ParsedBy.set ?_ (by decide) _)
      | (with_reducible apply NsBy.obj)
      | (with_reducible apply NsBy.ite)
      | (with_reducible refine NsBy.set ?_ (by decide) _)
      | (with_reducible apply nsBy_known; assumption)
      | (with_reducible apply nsBy_args; assumption)
      | (refine ParsedBy.mono ‹_› (by decide)))))

/-! ## Attributes that no option writes -/

theorem get_other {p : OptParser} {k : Str} (hk : ∀ b, p.Has b → b.dest ≠ k) {l : Option Int} {args ex : List Str} {ns : Ns}
    (h : p.parseKnown l args = .ok (ns, ex)) : ns.get k = none := by
  have : ns.Holds k fun _ => False := by
    refine parseKnown_holds ?_ ?_ ?_ h
    · intro b hb e; exact hk b (.inl hb) e
    · intro b hb e; exact absurd e (hk b hb)
    · intro b hb e; exact absurd e (hk b (.inl hb))
  cases hg : ns.get k with
  | none => rfl
  | some v => exact (this v hg).elim

/-- Only options and actions that write attributes in `skip`. -/
def OptParser.closed (p : OptParser) (skip : List Str) : Bool := p.actions.all fun b => p.optDests.contains b.dest || skip.contains b.dest

theorem not_dest {p : OptParser} (hc : p.closed skip = true) {k : Str} (hk : k ∉ p.optDests) (hs : k ∉ skip) : ∀ b, p.Has b → b.dest ≠ k := by
  rintro b (hb | ⟨m, hb⟩) rfl
  · have := List.all_eq_true.1 hc b hb
    simp only [Bool.or_eq_true, List.contains_eq_mem, decide_eq_true_eq] at this
    rcases this with h | h
    · exact hk h
    · exact hs h
  · exact hk (List.mem_map.2 ⟨b, List.mem_map.2 ⟨_, hb, rfl⟩, rfl⟩)

/-! ## Well-formed parsers -/

instance (p : OptParser) : Decidable p.WF :=
  decidable_of_iff ((∀ a ∈ p.actions, a.id < p.nextId) ∧ (∀ kv ∈ p.strings, kv.2.id < p.nextId) ∧ (p.actions.map (·.id)).Nodup ∧
    (∀ kv ∈ p.strings, kv.1 ∈ kv.2.opts) ∧ (∀ kv ∈ p.strings, ∀ a ∈ p.actions, a.id = kv.2.id → a = kv.2) ∧ (∀ a ∈ p.actions, ∀ o ∈ a.opts, (o, a) ∈ p.strings) ∧
    (∀ kv ∈ p.strings, startsWith kv.1 c!"--" = true ∧ 2 < kv.1.length ∧ '=' ∉ kv.1 ∧ ' ' ∉ kv.1) ∧
    (∀ kv ∈ p.strings, ∀ kv' ∈ p.strings, kv.2.id = kv'.2.id → kv.2 = kv'.2) ∧ (p.strings.map (·.1)).Nodup ∧ ∀ kv ∈ p.strings, kv.2.opts.Nodup)
    ⟨fun ⟨a, b, c, d, e, f, g, h, i, j⟩ => ⟨a, b, c, d, e, f, g, h, i, j⟩, fun ⟨a, b, c, d, e, f, g, h, i, j⟩ => ⟨a, b, c, d, e, f, g, h, i, j⟩⟩

/-! ## Commands with data lists -/

/-- A comment line. -/
def headingOk (hd : Str) : Bool :=
  match hd with
  | '#' :: t => t.getLast? = some '\n' && !t.dropLast.contains '\n'
  | _ => false

theorem lex_comment {t rest tok : Str} (h : '\n' ∉ t) : shlexGo true .comment tok (t ++ '\n' :: rest) = shlexGo true .space [] rest := by
  induction t generalizing tok with
  | nil => simp [shlexGo]
  | cons c t ih =>
    have hc : c ≠ '\n' := fun e => h (by simp [e])
    simp only [List.cons_append, shlexGo, beq_iff_eq, hc, if_false]
    exact ih fun e => h (List.mem_cons_of_mem _ e)

theorem lex_heading {hd : Str} (h : headingOk hd = true) (rest : Str) : shlexSplit (hd ++ rest) true = shlexSplit rest true := by
  unfold headingOk at h
  split at h
  · rename_i t
    simp only [Bool.and_eq_true, decide_eq_true_eq, Bool.not_eq_true', List.contains_eq_mem, decide_eq_false_iff_not] at h
    have e : t = t.dropLast ++ ['\n'] := by
      have hne : t ≠ [] := by rintro rfl; simp at h
      rw [List.getLast?_eq_some_getLast hne] at h
      have := (List.dropLast_append_getLast hne).symm
      rw [Option.some.inj h.1] at this
      exact this
    rw [e]
    simp only [shlexSplit, List.cons_append, List.append_assoc, List.nil_append]
    rw [shlexGo]
    simp only [shWhite]
    exact lex_comment h.2
  · cases h

/-- What is known of the text of a command. -/
structure Sheet where
  /-- conditions under which something is written -/
  given : List Cond := [.tt]
  /-- what the text starts with -/
  names : List Str
  /-- attributes that nothing is claimed of -/
  skip : List Str := []
  /-- attributes that are written even if they are false or empty -/
  full : List Str := []
  /-- attributes that must not be empty -/
  pos : List Str := []
  /-- attributes that are strings or `None` -/
  opt : List Str := []
  /-- lists that must not be empty -/
  lst : List Str := []
  /-- attributes that may hold any text without double quotes and backslashes -/
  loose : List Str := []
  /-- attributes that are only written under a condition -/
  lossy : List (Str × Cond) := []
  /-- attributes that are at the end of a text that is stripped -/
  ends : List Str := []
  /-- conditions on the object -/
  req : List Cond := []

/-- The text does not end with white space. -/
def NoSpaceEnd (s : Str) : Prop := ∀ c ∈ s.getLast?, isSpace c = false

instance (s : Str) : Decidable (NoSpaceEnd s) := by unfold NoSpaceEnd; infer_instance

/-- The texts of the value do not end with white space. -/
def Val.Ends (v : Val) : Prop := NoSpaceEnd v.fmt ∧ ∀ x ∈ v.items, NoSpaceEnd x

instance (v : Val) : Decidable v.Ends := by unfold Val.Ends; infer_instance

/-- The object can be written. -/
def Sheet.Plain (s : Sheet) (d : Ns) : Prop := Ks.Plain s.pos s.lst s.loose d ∧ (∀ k ∈ s.opt, (d.getD k).Maybe) ∧ (∀ k ∈ s.ends, (d.getD k).Ends) ∧ ∀ c ∈ s.req, c.eval d = true

instance (s : Sheet) (d : Ns) : Decidable (s.Plain d) := by unfold Sheet.Plain; infer_instance

/-- The object `d'` that was read back agrees with `d`: an attribute has its value or the one it has
without options, and it has its value if that is written. -/
def Sheet.Agree (s : Sheet) (base d d' : Ns) : Prop :=
  ∀ k, k ∉ s.skip → (d'.get k = d.get k ∨ d'.get k = base.get k) ∧
    ((whenKept s.lossy k).eval d = true → k ∈ s.full ∨ (d.getD k).truthy = true → d'.get k = d.get k)

/-- `base` holds the values of an object that is read from a line without options. -/
def Command.Base (c : Command) (s : Sheet) (base : Ns) : Prop :=
  ∀ h args i d, (∀ a ∈ args, startsWith a c!"-" = false) → (c.parse h args i).2 = .ok (some d) → ∀ k, k ∉ s.skip → d.get k = base.get k

/-- What the command reads back from the text of an object that `parse` made. -/
def Command.ReadsBack (c : Command) (s : Sheet) (base : Ns) : Prop :=
  c.Base s base ∧ ∀ h args i d, (c.parse h args i).2 = .ok (some d) → s.Plain d →
    ∃ words, shlexSplit (c.str { attrs := { data := [d] } }) true = .ok words ∧ ((words = [] ∧ ∀ g ∈ s.given, g.eval d = false) ∨ ∃ name ∈ s.names, ∃ args', words = name :: args' ∧
      ∀ h' i' d', (c.parse h' args' i').2 = .ok (some d') → s.Agree base d d')

/-- If one of the conditions holds, something is written. -/
def givenOk (given : List Cond) (o : Out) : Bool :=
  match outArgs o with
  | some l => given.all fun g => l.any fun x => !x.2.isEmpty && g.follows x.1
  | none => given.isEmpty

theorem given_sound {given : List Cond} {o : Out} (h : givenOk given o = true) {d : Ns} {l : List (Cond × List SymArg)} (hl : outArgs o = some l)
    (hf : firedArgs d l = []) : ∀ g ∈ given, g.eval d = false := by
  intro g hg
  unfold givenOk at h
  rw [hl] at h
  simp only [List.all_eq_true, List.any_eq_true, Bool.and_eq_true, Bool.not_eq_true', List.isEmpty_eq_false_iff] at h
  obtain ⟨x, hx, hne, hfo⟩ := h g hg
  rw [Bool.eq_false_iff]
  intro hgd
  obtain ⟨a, ha⟩ := List.exists_mem_of_ne_nil _ hne
  have := mem_firedArgs.2 ⟨x, hx, follows_sound hgd hfo, ha⟩
  rw [hf] at this
  cases this

/-- The check of a template for a sheet. -/
def Sheet.check (s : Sheet) (op : OptParser) (init : Ns) (o : Out) : Bool :=
  givenOk s.given o && rtCheck op init s.names s.skip s.full s.lossy o && op.closed s.skip && plainCheck s.pos s.opt s.lst s.loose o && decide op.WF

theorem ParsedBy.parsed (h : ParsedBy op init skip n args d) : Parsed op init skip d := by
  obtain ⟨ns, ex, h1, h2⟩ := h
  exact ⟨_, _, ns, ex, h1, h2⟩

theorem readsBack_obj {s : Sheet} {o : Out} (hc : s.check op init o = true) (hP : ParsedBy op init s.skip n args d) (hp : s.Plain d) :
    ∃ words, shlexSplit (o.render d) true = .ok words ∧ ((words = [] ∧ ∀ g ∈ s.given, g.eval d = false) ∨ ∃ name ∈ s.names, ∃ args', words = name :: args' ∧
      ∀ n' d', ParsedBy op init s.skip n' args' d' → s.Agree (setToObj op.defaults init) d d') := by
  unfold Sheet.check at hc
  simp only [Bool.and_eq_true, decide_eq_true_eq] at hc
  obtain ⟨⟨⟨⟨hgiv, hc⟩, hcl⟩, hpl⟩, wf⟩ := hc
  obtain ⟨hsafe, hdash⟩ := plain_safe hpl hp.1 hp.2.1
  obtain ⟨words, h1, h2⟩ := readBack hc wf hP.parsed hsafe hdash (plain_dev hp.1)
  refine ⟨words, h1, ?_⟩
  rcases h2 with h2 | ⟨name, hn, args', e, h2⟩
  · refine .inl ⟨h2.1, ?_⟩
    cases hl : outArgs o with
    | none => simp [rtCheck, hl] at hc
    | some l => exact given_sound hgiv hl (h2.2 l hl)
  refine .inr ⟨name, hn, args', e, fun n' d' hd' k hk => ?_⟩
  by_cases hko : k ∈ op.optDests
  · obtain ⟨ns1, ex1, h3, h4⟩ := hd'
    exact h2 _ ns1 ex1 d' h3 h4 k hko hk
  · have hother := not_dest hcl hko hk
    have e : d'.get k = d.get k := by
      obtain ⟨ns1, ex1, h3, h4⟩ := hd'
      obtain ⟨ns0, ex0, h5, h6⟩ := hP
      rw [h4 k hk, h6 k hk, C16_set_to_obj _ _ (C16_known_keys _ _ _ _ _ h3), C16_set_to_obj _ _ (C16_known_keys _ _ _ _ _ h5),
        get_other hother h3, get_other hother h5]
    exact ⟨.inl e, fun _ _ => e⟩

theorem base_obj {s : Sheet} {o : Out} (hc : s.check op init o = true) (ha : ∀ a ∈ args, startsWith a c!"-" = false) (hP : ParsedBy op init s.skip n args d) :
    ∀ k, k ∉ s.skip → d.get k = (setToObj op.defaults init).get k := by
  unfold Sheet.check at hc
  simp only [Bool.and_eq_true, decide_eq_true_eq] at hc
  obtain ⟨⟨⟨⟨-, hc⟩, hcl⟩, -⟩, wf⟩ := hc
  obtain ⟨ns, ex, h1, h2⟩ := hP
  intro k hk
  rw [h2 k hk, C16_set_to_obj _ _ (C16_known_keys _ _ _ _ _ h1), C16_set_to_obj _ _ (defaults_nodup op)]
  have e : ns.get k = op.defaults.get k := by
    by_cases hko : k ∈ op.optDests
    · have hnice : op.nice k = true := by
        unfold rtCheck at hc
        split at hc
        · cases hc
        · simp only [Bool.and_eq_true, List.all_eq_true, Bool.or_eq_true, List.contains_eq_mem, decide_eq_true_eq] at hc
          rcases hc.1.2 k hko with h | h
          · exact absurd h hk
          · exact h.1
      have hargs : args = (args.map MixArg.pos).map MixArg.text := by
        rw [List.map_map]; exact (List.map_id args).symm
      rw [hargs] at h1
      have hm : ∀ l : List Str, mixToks (l.map MixArg.pos) = [] := fun l => by induction l with
        | nil => rfl
        | cons a l ih => simpa [mixToks] using ih
      have := (parseKnown_mixed wf (d := k) (by
        intro x hx
        obtain ⟨a, hm, rfl⟩ := List.mem_map.1 hx
        exact ha a hm) (fun b hb e => by obtain ⟨h1, -, h3⟩ := nice_iff hnice (.inl hb) e; exact ⟨h1, h3⟩) h1).1
      rw [this, hm]
      rfl
    · have hother := not_dest hcl hko hk
      rw [get_other hother h1]
      have : op.defaults.Holds k fun _ => False := defaults_holds _ _ (fun b hb e => hother b (.inl hb) e) (by intro v hv; cases hv)
      cases hg : op.defaults.get k with
      | none => rfl
      | some v => exact (this v hg).elim
  rw [e]

theorem shlexSplit_nil : shlexSplit [] true = .ok [] := rfl

theorem list_readsBack {name : Str} {prio : Option Int} {cinit : Ns} {dc : DataCls} {parse : List Str → M Ns} {str : List Str → Str}
    (s : Sheet) {o : Out} (hparse : ∀ args n, M.Post n (parse args) (ParsedBy op dc.init s.skip n args))
    (hstr : ∀ d, dc.str d = o.render d) (hs : str = listStr ∨ ∃ hd, headingOk hd = true ∧ str = headedListStr hd) (hc : s.check op dc.init o = true) :
    (listCmd name prio cinit dc parse str).ReadsBack s (setToObj op.defaults dc.init) := by
  refine ⟨fun h args i d ha hd => ?_, ?_⟩
  · obtain ⟨d', e, hd'⟩ := list_value hd
    cases e
    exact base_obj hc ha ((hparse args i.lineno).run rfl hd')
  intro h args i d hd hp
  obtain ⟨d', e, hd'⟩ := list_value hd
  cases e
  obtain ⟨words, h1, h2⟩ := readsBack_obj hc ((hparse args i.lineno).run rfl hd') hp
  refine ⟨words, ?_, ?_⟩
  · have : (listCmd name prio cinit dc parse str).str { attrs := { data := [d] } } = str [dc.str d] := rfl
    rw [this, hstr]
    rcases hs with rfl | ⟨hd, hok, rfl⟩
    · simpa [listStr] using h1
    · unfold headedListStr
      split
      · rename_i he
        simp only [List.flatten_cons, List.flatten_nil, List.append_nil, List.isEmpty_iff] at he
        rw [he] at h1
        exact h1
      · rw [lex_heading hok]
        simpa using h1
  · rcases h2 with h2 | ⟨nm, hn, args', e, h2⟩
    · exact .inl h2
    refine .inr ⟨nm, hn, args', e, fun h' i' d2 hd2 => ?_⟩
    obtain ⟨d3, e3, hd3⟩ := list_value hd2
    cases e3
    exact h2 i'.lineno d2 ((hparse args' i'.lineno).run rfl hd3)

end Ks
