import Verif.ArgparseMixed
import Verif.Commands.NormalArgs
/-!
# Parsers with one word among their options

The namespace after a line that consists of options and at most one word, before or after them.
-/
namespace Ks

variable {p : OptParser} {l : Option Int}

/-- The namespace after options `ts`, with the value `v` for the word. -/
def WordNs (p : OptParser) (l : Option Int) (a : Action) (v : Val) (ts : List Tok) (ns : Ns) : Prop :=
  ns.keys.Nodup ∧ ns.get a.dest = some v ∧ ∀ k, k ≠ a.dest → ns.get k = runKey p l k ts (p.defaults.get k)

/-- A word, or none, before the options. -/
theorem known_front (wf : p.WF) {a : Action} (hp : p.initSt.positionals = [a]) (hk : a.kind = .store) (hd : p.plainDefaults = true)
    {w : Str} (hw : startsWith w c!"-" = false) (hcount : matchPartial [a.nargs] [(w, Cls.A)] = [1]) {ts : List Tok} (hts : ∀ t ∈ ts, t.Fits p)
    (hv : ∀ t ∈ ts, ∃ a v, p.lookup t.name = some a ∧ getValues l a t.val.toList = .ok v) {v : Val} (hg : getValues l a [w] = .ok v)
    (hreq : ∀ b ∈ p.actions, b.required = true → b.id = a.id ∨ b.id ∈ tokIds p ts) (hno : ∀ t ∈ ts, ∀ b, p.lookup t.name = some b → b.dest ≠ a.dest) :
    ∃ ns, p.parseKnown l (w :: ts.map Tok.text) = .ok (ns, []) ∧ WordNs p l a v ts ns := by
  have htake : takeAction l a [w] p.defaults = .ok (p.defaults.set a.dest v) := by
    simp only [takeAction, hg, Except.map, applyAction, hk]
  have hcons : consumePositionals l p.initSt [(w, Cls.A)] = .ok (⟨p.defaults.set a.dest v, [], [], [a.id]⟩, []) := by
    unfold consumePositionals
    rw [hp]
    simp only [List.map_cons, List.map_nil, hcount, takePositionals, List.take_succ_cons, List.take_zero]
    rw [show p.initSt.ns = p.defaults from rfl, htake]
    rfl
  have hfin : ∀ (seen : List Nat) (ns : Ns), (∀ i ∈ tokIds p ts, i ∈ seen) → a.id ∈ seen → finish l seen p.actions ns false = .ok (ns, false) := by
    intro seen ns h1 h2
    refine finish_id (fun b hb hr => ?_) (plainDefaults_type hd)
    rcases hreq b hb hr with e | e
    · rw [e]; exact h2
    · exact h1 _ e
  suffices h : ∃ ns, p.parseKnown l (w :: ts.map Tok.text) = .ok (ns, []) ∧ ns.get a.dest = some v ∧ ∀ k, k ≠ a.dest → ns.get k = runKey p l k ts (p.defaults.get k) by
    obtain ⟨ns, h1, h2⟩ := h
    exact ⟨ns, h1, C16_known_keys _ _ _ _ _ h1, h2⟩
  have := parseKnown_canon wf l (pos := [w]) (by simpa using hw) hts
  rw [List.singleton_append] at this
  rw [this]
  unfold canonLoop
  by_cases hnil : ts = []
  · subst hnil
    rw [if_pos rfl, List.map_cons, List.map_nil, hcons]
    simp only
    rw [hfin _ _ (by simp [tokIds]) (by simp)]
    exact ⟨_, rfl, Ns.get_set_self _ _ _, fun k hk => by rw [Ns.get_set, if_neg fun e => hk e.symm]; rfl⟩
  rw [if_neg hnil, List.map_cons, List.map_nil]
  have hpl : posLoop l ([w].length + 1) p.initSt [(w, Cls.A)] = .ok ⟨p.defaults.set a.dest v, [], [], [a.id]⟩ := by
    rw [posLoop, if_neg (by simp), hcons]
    simp only [List.length_nil, List.length_cons, Nat.lt_add_one, if_true]
    rfl
  rw [hpl]
  simp only
  obtain ⟨ns, hns⟩ := (runToks_ok_iff (ns := p.defaults.set a.dest v)).2 hv
  rw [hns]
  simp only
  rw [consumePositionals_nil rfl]
  simp only
  rw [hfin _ _ (fun i hi => by simp [hi]) (by simp)]
  refine ⟨ns, rfl, ?_, fun k hk => ?_⟩
  · rw [runToks_get hns, Ns.get_set_self]
    exact (runKey_const (x := some v) (fun t ht b hb e => absurd e (hno t ht b hb))).2 (.inr rfl)
  · rw [runToks_get hns, Ns.get_set, if_neg fun e => hk e.symm]

/-- The loop over options before a word. -/
theorem parseLoop_before (wf : p.WF) {f : Nat} {ts : List Tok} {r : Args} (hr : ∀ x ∈ r, x.2.isO = false) (hf : ts.length < f)
    (h : ∀ t ∈ ts, (MixArg.tok t).Ok p) (st : LoopSt) :
    parseLoop l f st (ts.map (tokCls p) ++ r) =
      match runToks p l ts st.ns with
      | .error e => .error e
      | .ok ns => consumePositionals l { st with ns := ns, seen := (tokIds p ts).reverse ++ st.seen } r := by
  induction ts generalizing f st with
  | nil =>
    cases f with
    | zero => simp at hf
    | succ f => simp [parseLoop, splitO_eq_none hr, runToks, tokIds]
  | cons t ts ih =>
    cases f with
    | zero => simp at hf
    | succ f =>
      obtain ⟨a, ha, hm⟩ := h t (by simp)
      have hl := wf.lookup ha
      rw [parseLoop, List.map_cons, List.cons_append]
      rw [show tokCls p t = (t.text, .O ⟨p.lookup t.name, t.val⟩) from rfl]
      simp only [splitO, if_pos]
      have hc : consumeOptional l st t.text ⟨p.lookup t.name, t.val⟩ (ts.map (tokCls p) ++ r) =
          match takeAction l a t.val.toList st.ns with
          | .error e => .error e
          | .ok ns => .ok ({ st with ns := ns, seen := a.id :: st.seen }, ts.map (tokCls p) ++ r) := by
        unfold consumeOptional
        simp only [hl]
        cases hv : t.val with
        | some v =>
          rw [hv] at hm
          simp only at hm
          have : matchOptional a.nargs [(v, Cls.A)] = some 1 := by rcases hm with hm | hm <;> rw [hm] <;> rfl
          simp only [this, Option.toList]
          rfl
        | none =>
          rw [hv] at hm
          simp only at hm
          simp only [hm, matchOptional, Nat.zero_le, if_true, List.take_zero, List.map_nil, List.drop_zero, Option.toList]
          rfl
      rw [hc]
      simp only [runToks, hl]
      cases takeAction l a t.val.toList st.ns with
      | error e => rfl
      | ok ns =>
        simp only
        rw [ih (by simpa using hf) (fun t ht => h t (by simp [ht]))]
        simp [tokIds, hl]

/-- A word, or none, after the options. -/
theorem known_back (wf : p.WF) {a : Action} (hp : p.initSt.positionals = [a]) (hk : a.kind = .store) (hd : p.plainDefaults = true)
    {ws : List Str} (hw : ∀ w ∈ ws, startsWith w c!"-" = false) (hcount : matchPartial [a.nargs] (ws.map fun w => (w, Cls.A)) = [ws.length]) {ts : List Tok}
    (hts : ∀ t ∈ ts, (MixArg.tok t).Ok p)
    (hv : ∀ t ∈ ts, ∃ a v, p.lookup t.name = some a ∧ getValues l a t.val.toList = .ok v) {v : Val} (hg : getValues l a ws = .ok v)
    (hreq : ∀ b ∈ p.actions, b.required = true → b.id = a.id ∨ b.id ∈ tokIds p ts) :
    ∃ ns, p.parseKnown l (ts.map Tok.text ++ ws) = .ok (ns, []) ∧ WordNs p l a v ts ns := by
  suffices h : ∃ ns, p.parseKnown l (ts.map Tok.text ++ ws) = .ok (ns, []) ∧ ns.get a.dest = some v ∧ ∀ k, k ≠ a.dest → ns.get k = runKey p l k ts (p.defaults.get k) by
    obtain ⟨ns, h1, h2⟩ := h
    exact ⟨ns, h1, C16_known_keys _ _ _ _ _ h1, h2⟩
  have hcl := classify_mixed wf l (xs := ts.map .tok ++ ws.map .pos) (by
    intro x hx
    rcases List.mem_append.1 hx with hx | hx
    · obtain ⟨t, ht, rfl⟩ := List.mem_map.1 hx; exact hts t ht
    · obtain ⟨w, hw', rfl⟩ := List.mem_map.1 hx; exact hw w hw')
  have e1 : (ts.map MixArg.tok ++ ws.map MixArg.pos).map MixArg.text = ts.map Tok.text ++ ws := by
    rw [List.map_append, List.map_map, List.map_map]
    congr 1
    exact List.map_id'' (fun _ => rfl) ws
  have e2 : (ts.map MixArg.tok ++ ws.map MixArg.pos).map (MixArg.cls p) = ts.map (tokCls p) ++ ws.map fun w => (w, Cls.A) := by
    rw [List.map_append, List.map_map, List.map_map]
    rfl
  rw [e1, e2] at hcl
  unfold OptParser.parseKnown
  rw [hcl]
  simp only
  rw [parseLoop_before wf (by simp [Cls.isO]) (by simp; omega) hts]
  obtain ⟨ns, hns⟩ := (runToks_ok_iff (ns := p.defaults)).2 hv
  rw [show p.initSt.ns = p.defaults from rfl, hns]
  simp only
  have hcons : ∀ seen, consumePositionals l { p.initSt with ns := ns, seen := seen } (ws.map fun w => (w, Cls.A)) = .ok (⟨ns.set a.dest v, [], [], a.id :: seen⟩, []) := by
    intro seen
    unfold consumePositionals
    simp only [hp, List.map_cons, List.map_nil, hcount, takePositionals]
    have : ((ws.map fun w => (w, Cls.A)).take ws.length).map (·.1) = ws := by
      rw [List.take_of_length_le (by simp), List.map_map]
      exact List.map_id'' (fun _ => rfl) ws
    rw [this]
    simp only [takeAction, hg, Except.map, applyAction, hk, List.drop_of_length_le (show (ws.map fun w => (w, Cls.A)).length ≤ ws.length by simp)]
    rfl
  rw [hcons]
  simp only
  rw [finish_id (fun b hb hr => ?_) (plainDefaults_type hd)]
  · refine ⟨ns.set a.dest v, by simp, Ns.get_set_self _ _ _, fun k hk => ?_⟩
    rw [Ns.get_set, if_neg fun e => hk e.symm, runToks_get hns]
  · rcases hreq b hb hr with e | e
    · rw [e]; simp
    · simp [e]

theorem erase_word {w : Str} (h : startsWith w c!"-" = false) : [w].erase c!"--" = [w] := by
  refine List.erase_of_not_mem ?_
  rw [List.mem_singleton]
  rintro rfl
  revert h
  decide

theorem getValues_words {a : Action} {w : Str} (h : startsWith w c!"-" = false) (ht : a.ty = .str) (hc : a.choices = none) (hn : a.nargs = .n 1 ∨ a.nargs = .star) :
    getValues l a [w] = .ok (.list [w]) := by
  have e : (if a.opts = [] then [w].erase c!"--" else [w]) = [w] := by rw [erase_word h]; split <;> rfl
  unfold getValues
  rw [e]
  have g : getValueList l a [w] = .ok [w] := by
    simp only [getValueList, getValue, Action.type, ht, Ty.run, checkValue, hc, Val.asStr]
    rfl
  rcases hn with hn | hn <;> rw [hn] <;> simp only [g, Except.map]

theorem getValues_word {a : Action} {w : Str} (h : startsWith w c!"-" = false) (ht : a.ty = .str) (hc : a.choices = none) (hn : a.nargs = .opt) :
    getValues l a [w] = .ok (.str w) := by
  have e : (if a.opts = [] then [w].erase c!"--" else [w]) = [w] := by rw [erase_word h]; split <;> rfl
  unfold getValues
  rw [e, hn]
  simp only [getValue, Action.type, ht, Ty.run, checkValue, hc]
  rfl

/-- The values of an object after the namespace is copied to it. -/
theorem setTo_get {a : Action} {v : Val} (hv : v ≠ .none) {ts : List Tok} {ns obj : Ns} (h : WordNs p l a v ts ns) :
    (setToObj ns obj).get a.dest = some v ∧ ∀ k, k ≠ a.dest → ∀ x, runKey p l k ts (p.defaults.get k) = some x → x ≠ .none → (setToObj ns obj).get k = some x := by
  obtain ⟨h1, h2, h3⟩ := h
  constructor
  · rw [C16_set_to_obj _ _ h1, h2]
    cases v <;> first | rfl | exact absurd rfl hv
  · intro k hk x hx hne
    rw [C16_set_to_obj _ _ h1, h3 k hk, hx]
    cases x <;> first | rfl | exact absurd rfl hne

/-- The option is not given. -/
theorem setTo_keep {a : Action} {v : Val} {ts : List Tok} {ns obj : Ns} (h : WordNs p l a v ts ns) {k : Str} (hk : k ≠ a.dest)
    (hx : runKey p l k ts (p.defaults.get k) = some .none) : (setToObj ns obj).get k = obj.get k := by
  obtain ⟨h1, -, h3⟩ := h
  rw [C16_set_to_obj _ _ h1, h3 k hk, hx]

/-- The parser has one positional argument, a word, and options that do not set its attribute. -/
def oneWord (p : OptParser) (a : Action) : Bool :=
  decide p.WF && p.plainDefaults && decide (p.initSt.positionals = [a]) && decide (a.kind = .store) && decide (a.ty = .str) && decide (a.choices = none) &&
    p.actions.all (fun b => !b.required || b.id == a.id) && p.strings.all fun x => decide (x.2.dest ≠ a.dest)

/-- Tokens that the parser accepts. -/
def TokOk (p : OptParser) (l : Option Int) (t : Tok) : Prop :=
  ∃ a v, p.lookup t.name = some a ∧ (match t.val with | none => a.nargs = .n 0 | some _ => a.nargs = .one ∨ a.nargs = .opt) ∧ getValues l a t.val.toList = .ok v

theorem TokOk.ok {t : Tok} (h : TokOk p l t) : (MixArg.tok t).Ok p := by
  obtain ⟨a, v, h1, h2, -⟩ := h
  exact ⟨a, lookup_mem_pair h1, h2⟩

theorem front_word {a : Action} (h : oneWord p a = true) {w : Str} (hw : startsWith w c!"-" = false) (hn : a.nargs = .n 1 ∨ a.nargs = .star) {ts : List Tok} (hts : ∀ t ∈ ts, TokOk p l t) :
    ∃ ns, p.parseKnown l (w :: ts.map Tok.text) = .ok (ns, []) ∧ WordNs p l a (.list [w]) ts ns := by
  simp only [oneWord, Bool.and_eq_true, decide_eq_true_eq, List.all_eq_true, Bool.or_eq_true, Bool.not_eq_true', beq_iff_eq] at h
  obtain ⟨⟨⟨⟨⟨⟨⟨h1, h2⟩, h3⟩, h4⟩, h5⟩, h6⟩, h7⟩, h8⟩ := h
  refine known_front h1 h3 h4 h2 hw ?_ (fun t ht => (hts t ht).ok.fits) (fun t ht => ?_) (getValues_words hw h5 h6 hn) (fun b hb hr => ?_) (fun t ht b hb => h8 _ (lookup_mem_pair hb))
  · rcases hn with hn | hn <;> rw [hn] <;> rfl
  · obtain ⟨b, v, g1, -, g2⟩ := hts t ht
    exact ⟨b, v, g1, g2⟩
  · rcases h7 b hb with e | e
    · rw [hr] at e; cases e
    · exact .inl e

theorem back_words {a : Action} (h : oneWord p a = true) {ws : List Str} (hw : ∀ w ∈ ws, startsWith w c!"-" = false) {v : Val} (hg : getValues l a ws = .ok v)
    (hcount : matchPartial [a.nargs] (ws.map fun w => (w, Cls.A)) = [ws.length]) {ts : List Tok} (hts : ∀ t ∈ ts, TokOk p l t) :
    ∃ ns, p.parseKnown l (ts.map Tok.text ++ ws) = .ok (ns, []) ∧ WordNs p l a v ts ns := by
  simp only [oneWord, Bool.and_eq_true, decide_eq_true_eq, List.all_eq_true, Bool.or_eq_true, Bool.not_eq_true', beq_iff_eq] at h
  obtain ⟨⟨⟨⟨⟨⟨⟨h1, h2⟩, h3⟩, h4⟩, h5⟩, h6⟩, h7⟩, h8⟩ := h
  refine known_back h1 h3 h4 h2 hw hcount (fun t ht => (hts t ht).ok) (fun t ht => ?_) hg (fun b hb hr => ?_)
  · obtain ⟨b, v, g1, -, g2⟩ := hts t ht
    exact ⟨b, v, g1, g2⟩
  · rcases h7 b hb with e | e
    · rw [hr] at e; cases e
    · exact .inl e

end Ks
