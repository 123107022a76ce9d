import Verif.Props.RawProps
/-!
# C81: what a line of `auth`, `authconfig`, `authselect` or `realm` does
-/
namespace Ks

open Cmd

/-! ## Specification -/

/-- Blanks, as many as there are. -/
def Blanks (b : Str) : Prop := ∀ c ∈ b, isSpace c = true

/-- What is written before the text of the line. -/
def rawHead (n : Str) : Str :=
  if n = c!"authselect" then c!"# System authorization information\nauthselect " else c!"# System authorization information\nauth "

/-- `realm` accepts what follows its name: it is split into `join` and arguments that `getopt` accepts, with one realm. -/
def RealmLine (rest : Str) (args : List Str) (opts : List (Str × Str)) (r : Str) : Prop :=
  shlexSplit rest false = .ok (c!"join" :: args) ∧ getopt F19_Realm.longopts args = some (opts, [r])

/-! ## Dispatch -/

theorem object_dispatch {v : Nat} (hv : Supported v) {h : Handler CState Ns} (s : Session v h) {n : Str} {o : Obj CState Ns} (ho : objectOf h n = some o)
    (l : Nat) (args : List Str) (line : Str) :
    (commandMap v).lookup n = some o.cls ∧ (∀ I E, Command.Ok o.cls I E → I o.inst.attrs.attrs) ∧ ∃ t : Str → Option Bool,
      (h.dispatch l (n :: args) line).2 = (match (o.cls.parse t args (o.inst.noted n line l)).2 with | .error e => some e | .ok _ => none) ∧
      objectOf (h.dispatch l (n :: args) line).1 n = some { o with inst := o.cls.stored (o.cls.parse t args (o.inst.noted n line l)) } := by
  have inv := session_inv hv s
  unfold objectOf at ho
  split at ho
  · rename_i r hlk
    obtain ⟨o', ho', hmem⟩ := inv.served n r hlk
    rw [ho] at ho'; cases ho'
    refine ⟨(mem_iff_lookup (supported_mapOk hv).dict).1 hmem, (inv.objs r o ho).2, (h.setInst r o (o.inst.noted n line l)).seenAttr, ?_, ?_⟩
    · rw [dispatch_eq hlk ho]
      dsimp only
      generalize (o.cls.parse (h.setInst r o (o.inst.noted n line l)).seenAttr args (o.inst.noted n line l)).2 = q
      cases q <;> rfl
    · rw [dispatch_eq hlk ho]
      unfold objectOf
      have hk : (h.setInst r o (o.cls.stored (o.cls.parse (h.setInst r o (o.inst.noted n line l)).seenAttr args (o.inst.noted n line l)))).commands.lookup n = some (some r) := hlk
      simp only [hk]
      obtain ⟨hr, -⟩ := List.getElem?_eq_some_iff.1 ho
      simp [Handler.setInst, hr]
  · cases ho

theorem raw_rest {n b a e : Str} (hb : Blanks b) (ha : Trimmed a) (he : Blanks e) : strip ((n ++ (b ++ a ++ e)).drop n.length) = a := by
  rw [List.drop_left]
  exact strip_padded (List.all_eq_true.2 hb) (List.all_eq_true.2 he) ha

/-! ## `auth` and `authselect` -/

theorem auth_parse {c : Command} {k : Str} (hcls : (k = c!"authconfig" ∧ (c = FC3_Authconfig.cls ∨ c = F28_Authconfig.cls)) ∨ (k = c!"authselect" ∧ c = F28_Authselect.cls))
    (t : Str → Option Bool) (args : List Str) (j : Inst CState) :
    (∃ x, (c.parse t args j).2 = .ok x) ∧ (selfOf (c.stored (c.parse t args j))).getD k = .str (strip (j.currentLine.drop j.currentCmd.length)) := by
  rcases hcls with ⟨rfl, rfl | rfl⟩ | ⟨rfl, rfl⟩
  all_goals
    refine ⟨⟨none, rfl⟩, ?_⟩
    rw [selfOf_getD (by decide)]
    exact (Ns.getD_set ..).trans (if_pos rfl)

theorem raw_cls {v : Nat} (hv : Supported v) {n k : Str} {c : Command} (hc : (commandMap v).lookup n = some c) (hk : rawKey n = some k) :
    (k = c!"authconfig" ∧ (c = FC3_Authconfig.cls ∨ c = F28_Authconfig.cls) ∧ n ≠ c!"authselect") ∨ (k = c!"authselect" ∧ c = F28_Authselect.cls ∧ n = c!"authselect") := by
  have hm := supported_mem hv
  unfold rawKey at hk
  split at hk
  · rename_i hn
    cases hk
    refine .inl ⟨rfl, ?_, by rcases hn with rfl | rfl <;> decide⟩
    rcases auth_class _ hm with ⟨h1, h2⟩ | ⟨h1, h2⟩ <;> rcases hn with rfl | rfl
    · exact .inl (Option.some.inj (hc.symm.trans h1))
    · exact .inl (Option.some.inj (hc.symm.trans h2))
    · exact .inr (Option.some.inj (hc.symm.trans h1))
    · exact .inr (Option.some.inj (hc.symm.trans h2))
  · split at hk
    · rename_i hn
      subst hn
      cases hk
      refine .inr ⟨rfl, ?_, rfl⟩
      rcases authselect_class _ hm with h | h
      · cases h.symm.trans hc
      · exact Option.some.inj (hc.symm.trans h)
    · cases hk

/-- C81: in every session, a line of `auth`, `authconfig` or `authselect` is accepted whatever follows the name, and what follows, without the blanks around it, is then the setting and is what is written; what was set before is gone. -/
theorem C81_auth {v : Nat} (hv : Supported v) {h : Handler CState Ns} (s : Session v h) {n k : Str} (hk : rawKey n = some k) (ho : objectOf h n ≠ none)
    (l : Nat) (args : List Str) {b a e : Str} (hb : Blanks b) (ha : Trimmed a) (he : Blanks e) :
    let r := h.dispatch l (n :: args) (n ++ (b ++ a ++ e))
    r.2 = none ∧ (attrsOf r.1 n).getD k = .str a ∧ textOf r.1 n = if a = [] then [] else rawHead n ++ a ++ c!"\n" := by
  obtain ⟨o, ho⟩ := Option.ne_none_iff_exists'.1 ho
  obtain ⟨hc, -, t, h1, h2⟩ := object_dispatch hv s ho l args (n ++ (b ++ a ++ e))
  have hcls := raw_cls hv hc hk
  obtain ⟨⟨x, hx⟩, hg⟩ := auth_parse (k := k) (c := o.cls) (by
    rcases hcls with ⟨h, h', -⟩ | ⟨h, h', -⟩
    · exact .inl ⟨h, h'⟩
    · exact .inr ⟨h, h'⟩) t args (o.inst.noted n (n ++ (b ++ a ++ e)) l)
  have hst : strip ((o.inst.noted n (n ++ (b ++ a ++ e)) l).currentLine.drop (o.inst.noted n (n ++ (b ++ a ++ e)) l).currentCmd.length) = a := raw_rest hb ha he
  rw [hst] at hg
  refine ⟨by rw [h1, hx], by unfold attrsOf; rw [h2]; exact hg, ?_⟩
  unfold textOf
  rw [h2]
  show o.cls.str (o.cls.stored _) = _
  generalize o.cls.stored (o.cls.parse t args (o.inst.noted n (n ++ (b ++ a ++ e)) l)) = i at hg
  rcases hcls with ⟨rfl, hcl, hn⟩ | ⟨rfl, hcl, rfl⟩
  · have hstr : o.cls.str i = FC3_Authconfig.strOut.render (selfOf i) := by rcases hcl with e | e <;> rw [e] <;> rfl
    rw [hstr]
    split
    · rename_i ha0
      subst ha0
      simp [FC3_Authconfig.strOut, Out.render, pieceText, Cond.eval, hg, Val.truthy]
    · rename_i ha0
      rw [auth_text ha0 hg]
      unfold rawHead
      rw [if_neg hn]
      simp
  · have hstr : o.cls.str i = F28_Authselect.strOut.render (selfOf i) := by rw [hcl]; rfl
    rw [hstr]
    split
    · rename_i ha0
      subst ha0
      simp [F28_Authselect.strOut, Out.render, pieceText, Cond.eval, hg, Val.truthy]
    · rename_i ha0
      rw [authselect_text ha0 hg]
      unfold rawHead
      rw [if_pos rfl]
      simp

/-! ### A line that was split can be split again -/

theorem quote_blanks (q : Char) (hq : shWhite q = false) (hq' : q ≠ '\\') (b tok : Str) (hb : ∀ c ∈ b, shWhite c = true) : shlexGo true (.quote q) tok b = .error .noClosingQuotation := by
  induction b generalizing tok with
  | nil => rfl
  | cons c t ih =>
    have hc := hb c (by simp)
    have h1 : (c == q) = false := by
      rw [beq_eq_false_iff_ne]; rintro rfl; rw [hc] at hq; cases hq
    have h2 : (c == '\\') = false := by
      rw [beq_eq_false_iff_ne]; rintro rfl; exact absurd hc (by decide)
    simp only [shlexGo, h1, h2, Bool.false_and, Bool.false_eq_true, if_false]
    exact ih _ fun d hd => hb d (List.mem_cons_of_mem _ hd)

/-- The states of the tokenizer that occur: a quotation is begun by a quotation mark. -/
def LexState.Real : LexState → Prop
  | .quote q => shQuote q = true
  | _ => True

theorem map_ok {α β ε : Type} {f : α → β} {x : Except ε α} : (∃ y, x.map f = .ok y) ↔ ∃ y, x = .ok y := by
  cases x with
  | error e => constructor <;> rintro ⟨y, hy⟩ <;> cases hy
  | ok a => exact ⟨fun _ => ⟨a, rfl⟩, fun _ => ⟨f a, rfl⟩⟩

theorem tail_newline {b : Str} (hb0 : b ≠ []) (hb : ∀ c ∈ b, shWhite c = true) (x : Str) :
    ∀ (st : LexState) (tok : Str), st.Real → (∃ ws, shlexGo true st tok (x ++ b) = .ok ws) → ∃ ws, shlexGo true st tok (x ++ c!"\n") = .ok ws := by
  induction x with
  | nil =>
    intro st tok hst hok
    have hq : ∀ (tok : Str) (q : Char) (d : Str), (∀ c ∈ d, shWhite c = true) → shQuote q = true → ¬ ∃ ws, shlexGo true (.quote q) tok d = .ok ws := by
      rintro tok q d hd hq ⟨ws, h⟩
      have h1 : shWhite q = false ∧ q ≠ '\\' := by
        simp only [shQuote, Bool.or_eq_true, decide_eq_true_eq] at hq
        rcases hq with rfl | rfl <;> decide
      rw [quote_blanks q h1.1 h1.2 _ _ hd] at h
      cases h
    obtain ⟨d, t, rfl⟩ := List.exists_cons_of_ne_nil hb0
    cases st with
    | space => exact ⟨_, rfl⟩
    | comment => exact ⟨_, rfl⟩
    | word => exact ⟨_, rfl⟩
    | quote q => exact absurd hok (hq tok q _ hb hst)
    | escWord => exact ⟨_, rfl⟩
    | escQuote =>
      rw [List.nil_append, shlexGo] at hok
      split at hok <;> exact absurd hok (hq _ '"' _ (fun c hc => hb c (List.mem_cons_of_mem _ hc)) (by decide))
  | cons c t ih =>
    intro st tok hst hok
    rw [List.cons_append] at hok ⊢
    cases st with
    | space =>
      rw [shlexGo] at hok ⊢
      split at hok
      · rename_i h1; rw [if_pos h1]; exact ih _ _ trivial hok
      rename_i h1; rw [if_neg h1]
      split at hok
      · rename_i h2; rw [if_pos h2]; exact ih _ _ trivial hok
      rename_i h2; rw [if_neg h2]
      split at hok
      · rename_i h3; rw [if_pos h3]; exact ih _ _ trivial hok
      rename_i h3; rw [if_neg h3]
      split at hok
      · rename_i h4; rw [if_pos h4]; exact ih _ _ h4 hok
      rename_i h4; rw [if_neg h4]
      exact ih _ _ trivial hok
    | comment =>
      rw [shlexGo] at hok ⊢
      split at hok
      · rename_i h1; rw [if_pos h1]; exact ih _ _ trivial hok
      rename_i h1; rw [if_neg h1]
      exact ih _ _ trivial hok
    | word =>
      rw [shlexGo] at hok ⊢
      split at hok
      · rename_i h1; rw [if_pos h1]; exact map_ok.2 (ih _ _ trivial (map_ok.1 hok))
      rename_i h1; rw [if_neg h1]
      split at hok
      · rename_i h2; rw [if_pos h2]; exact map_ok.2 (ih _ _ trivial (map_ok.1 hok))
      rename_i h2; rw [if_neg h2]
      split at hok
      · rename_i h3; rw [if_pos h3]; exact ih _ _ h3 hok
      rename_i h3; rw [if_neg h3]
      split at hok
      · rename_i h4; rw [if_pos h4]; exact ih _ _ trivial hok
      rename_i h4; rw [if_neg h4]
      exact ih _ _ trivial hok
    | quote q =>
      rw [shlexGo] at hok ⊢
      split at hok
      · rename_i h1; rw [if_pos h1]; exact ih _ _ trivial hok
      rename_i h1; rw [if_neg h1]
      split at hok
      · rename_i h2; rw [if_pos h2]; exact ih _ _ trivial hok
      rename_i h2; rw [if_neg h2]
      exact ih _ _ hst hok
    | escWord =>
      rw [shlexGo] at hok ⊢
      exact ih _ _ trivial hok
    | escQuote =>
      rw [shlexGo] at hok ⊢
      split at hok
      · rename_i h1; rw [if_pos h1]; exact ih _ _ (show shQuote '"' = true by decide) hok
      rename_i h1; rw [if_neg h1]
      exact ih _ _ (show shQuote '"' = true by decide) hok

theorem rawKey_safe {n k : Str} (hk : rawKey n = some k) : n ≠ [] ∧ n.all safeChar = true := by
  unfold rawKey at hk
  split at hk
  · rename_i hn; rcases hn with rfl | rfl <;> decide
  · split at hk
    · rename_i hn; subst hn; decide
    · cases hk

theorem white_space {c : Char} (h : shWhite c = true) : isSpace c = true := by
  simp only [shWhite, Bool.or_eq_true, decide_eq_true_eq] at h
  rcases h with ((rfl | rfl) | rfl) | rfl <;> decide

/-- C81: whatever line of `auth`, `authconfig` or `authselect` was split into words by the parser and has something after the name: what is then written for the command is stable, and a new handler that reads it has the same setting. -/
theorem C81_auth_restored {v : Nat} (hv : Supported v) {h : Handler CState Ns} (s : Session v h) {n k : Str} (hk : rawKey n = some k) (ho : objectOf h n ≠ none)
    (l : Nat) {args : List Str} {b a e : Str} (hb0 : b ≠ []) (hb : ∀ c ∈ b, shWhite c = true) (he0 : e ≠ []) (he : ∀ c ∈ e, shWhite c = true)
    (ha0 : a ≠ []) (ha : Trimmed a) (hnb : NoBreak a) (hs : shlexSplit (n ++ (b ++ a ++ e)) true = .ok (n :: args)) :
    let h' := (h.dispatch l (n :: args) (n ++ (b ++ a ++ e))).1
    textOf h' n = rawHead n ++ a ++ c!"\n" ∧ StableText v n (textOf h' n) ∧
      (attrsOf (runCommands Handler.dispatch 0 (lineItems (textOf h' n)) (newHandler v)).1 n).getD k = .str a := by
  intro h'
  obtain ⟨-, h2, h3⟩ := C81_auth hv s hk ho l args (fun c hc => white_space (hb c hc)) ha (fun c hc => white_space (he c hc))
  rw [if_neg ha0] at h3
  have hsp : ∃ ws, shlexSplit (a ++ c!"\n") true = .ok ws := by
    unfold shlexSplit at hs ⊢
    obtain ⟨n1, n2⟩ := rawKey_safe hk
    have hq : quoteArg n = n := by unfold quoteArg; rw [if_neg n1, if_pos n2]
    have := shlexGo_quoteArg true n (b ++ (a ++ e))
    rw [hq, shlexGo_word_blank true b _ _ hb0 hb] at this
    rw [List.append_assoc b, this] at hs
    exact tail_newline he0 he a .space [] trivial (map_ok.1 ⟨_, hs⟩)
  have hr := C80_restores hv (s.dispatch l (n :: args) (n ++ (b ++ a ++ e))) (n := n) (.inl ⟨k, a, hk, h2, ha0, ha, hnb, hsp⟩)
  refine ⟨h3, hr.1, (hr.2 k ?_).trans h2⟩
  have : rawKeys n = [k] := by
    unfold rawKeys
    rw [if_neg (by rintro rfl; cases hk), hk]
    rfl
  rw [this]; simp

/-! ## `realm` -/

/-- C81: in every session, `realm` accepts a line exactly if no realm, or one with an empty name, was joined before, what follows the name is split into `join` and arguments, and `getopt` accepts the arguments and leaves one realm. The arguments, the realm and the options for discovery are then kept; a line that is refused changes nothing of this. -/
theorem C81_realm {v : Nat} (hv : Supported v) {h : Handler CState Ns} (s : Session v h) (ho : objectOf h c!"realm" ≠ none)
    (l : Nat) (ws : List Str) {b a e : Str} (hb : Blanks b) (ha : Trimmed a) (he : Blanks e) :
    let r := h.dispatch l (c!"realm" :: ws) (c!"realm" ++ (b ++ a ++ e))
    (r.2 = none ↔ ((attrsOf h c!"realm").getD c!"join_realm").truthy = false ∧ ∃ args opts x, RealmLine a args opts x) ∧
    (∀ args opts x, RealmLine a args opts x → r.2 = none → (attrsOf r.1 c!"realm").getD c!"join_realm" = .str x ∧ (attrsOf r.1 c!"realm").getD c!"join_args" = .list args ∧
      (attrsOf r.1 c!"realm").getD c!"discover_options" = .list ((opts.filter fun o => F19_Realm.discover.contains o.1).map fun o => o.1 ++ c!"=" ++ o.2)) ∧
    (r.2 ≠ none → ∀ k ∈ realmKeys, (attrsOf r.1 c!"realm").getD k = (attrsOf h c!"realm").getD k) := by
  dsimp only
  obtain ⟨o, ho⟩ := Option.ne_none_iff_exists'.1 ho
  obtain ⟨hc, -, t, h1, h2⟩ := object_dispatch hv s ho l ws (c!"realm" ++ (b ++ a ++ e))
  have hcls : o.cls = F19_Realm.cls := by
    rcases realm_class _ (supported_mem hv) with h | h
    · cases h.symm.trans hc
    · exact Option.some.inj (hc.symm.trans h)
  have hself : ∀ (j : Inst CState), ∀ k ∈ realmKeys, (selfOf j).getD k = j.attrs.attrs.getD k := by
    intro j k hk
    simp only [realmKeys, List.mem_cons, List.not_mem_nil, or_false] at hk
    rcases hk with rfl | rfl | rfl <;> exact selfOf_getD (by decide)
  have hat : attrsOf h c!"realm" = selfOf o.inst := by unfold attrsOf; rw [ho]
  have hbefore : ∀ k ∈ realmKeys, (attrsOf h c!"realm").getD k = o.inst.attrs.attrs.getD k := fun k hk => by rw [hat, hself _ k hk]
  have hst : strip ((o.inst.noted c!"realm" (c!"realm" ++ (b ++ a ++ e)) l).currentLine.drop (o.inst.noted c!"realm" (c!"realm" ++ (b ++ a ++ e)) l).currentCmd.length) = a := raw_rest hb ha he
  have hafter : ∀ i, objectOf (h.dispatch l (c!"realm" :: ws) (c!"realm" ++ (b ++ a ++ e))).1 c!"realm" = some { o with inst := i } → ∀ k ∈ realmKeys,
      (attrsOf (h.dispatch l (c!"realm" :: ws) (c!"realm" ++ (b ++ a ++ e))).1 c!"realm").getD k = i.attrs.attrs.getD k := by
    intro i hi k hk
    unfold attrsOf
    rw [hi]
    exact hself i k hk
  have hjr : ((attrsOf h c!"realm").getD c!"join_realm") = (selfOf (o.inst.noted c!"realm" (c!"realm" ++ (b ++ a ++ e)) l)).getD c!"join_realm" := by
    rw [hbefore _ (by decide), hself _ _ (by decide)]; rfl
  rw [hcls] at h1 h2 hafter
  rw [hjr]
  generalize hj : o.inst.noted c!"realm" (c!"realm" ++ (b ++ a ++ e)) l = j at *
  have hja : j.attrs = o.inst.attrs := by rw [← hj]; rfl
  have hpe : F19_Realm.parse ws t j = F19_Realm.parseArguments a t j := by
    unfold F19_Realm.parse
    show F19_Realm.parseArguments (strip (j.currentLine.drop j.currentCmd.length)) t j = _
    rw [hst]
  have hp : F19_Realm.cls.parse t ws j = (match F19_Realm.parseArguments a t j with | (i, .error e) => (i, .error e) | (i, .ok _) => (i, .ok none) : Inst CState × Except Exc (Option Ns)) := by
    rw [← hpe]; rfl
  rcases realmArgs_eq a t j with ⟨e, hx⟩ | ⟨args, opts, x, q1, q2, q3, hx⟩
  · rw [hx] at hp
    rw [hp] at h1 h2
    simp only at h1
    have hno : ¬ (((selfOf j).getD c!"join_realm").truthy = false ∧ ∃ args opts x, RealmLine a args opts x) := by
      rintro ⟨q1, args, opts, x, q2, q3⟩
      simp only [F19_Realm.parseArguments, bind, M.self, M.failIf, M.lift, q1, q2] at hx
      change F19_Realm.parseJoin args t j = _ at hx
      unfold F19_Realm.parseJoin at hx
      rw [q3] at hx
      cases congrArg Prod.snd hx
    rw [h1]
    refine ⟨⟨fun h => (by cases h), fun h => absurd h hno⟩, fun _ _ _ _ h => (by cases h), fun _ k hk => ?_⟩
    rw [hafter _ h2 k hk, hbefore k hk, ← hja]
    rfl
  · rw [hx] at hp
    rw [hp] at h1 h2
    simp only at h1
    rw [h1]
    refine ⟨⟨fun _ => ⟨q1, args, opts, x, q2, q3⟩, fun _ => rfl⟩, ?_, fun h => absurd rfl h⟩
    rintro args' opts' x' ⟨q2', q3'⟩ -
    rw [q2] at q2'
    cases q2'
    rw [q3] at q3'
    cases q3'
    refine ⟨?_, ?_, ?_⟩
    · rw [hafter _ h2 _ (by decide)]; show (realmSet j args opts x).attrs.attrs.getD _ = _; simp [realmSet, Ns.getD_set]
    · rw [hafter _ h2 _ (by decide)]; show (realmSet j args opts x).attrs.attrs.getD _ = _; simp [realmSet, Ns.getD_set]
    · rw [hafter _ h2 _ (by decide)]; show (realmSet j args opts x).attrs.attrs.getD _ = _; simp [realmSet, Ns.getD_set]

/-! ### The hypotheses can be met -/

theorem C81_cases :
    (((newHandler Version.F34).dispatch 1 [c!"auth", c!"--a", c!"b c"] c!"auth\t --a  'b c' #d \n").2 = none ∧
      textOf ((newHandler Version.F34).dispatch 1 [c!"auth", c!"--a", c!"b c"] c!"auth\t --a  'b c' #d \n").1 c!"auth" = c!"# System authorization information\nauth --a  'b c' #d\n") ∧
    shlexSplit c!"auth\t --a  'b c' #d \n" true = .ok [c!"auth", c!"--a", c!"b c"] ∧ objectOf (newHandler Version.F34) c!"auth" ≠ none ∧ objectOf (newHandler Version.F34) c!"realm" ≠ none := by
  decide +kernel

theorem C81_realm_case : RealmLine c!"join --client-software=sssd --no-password 'a b'" [c!"--client-software=sssd", c!"--no-password", c!"a b"]
    [(c!"--client-software", c!"sssd"), (c!"--no-password", [])] c!"a b" := by
  constructor <;> decide +kernel

/-- A second realm is refused, but not after one with an empty name: the command asks whether the name is true (/repo/pykickstart/commands/realm.py:41). The text after `#` is part of the line for the command but not for the parser: a line with a comment is refused (/repo/pykickstart/commands/realm.py:44). -/
theorem C81_realm_twice :
    ((readLines Version.F34 [(1, [c!"realm", c!"join", c!"a"], c!"realm join a\n")]).dispatch 2 [c!"realm", c!"join", c!"b"] c!"realm join b\n").2 ≠ none ∧
    ((readLines Version.F34 [(1, [c!"realm", c!"join", []], c!"realm join ''\n")]).dispatch 2 [c!"realm", c!"join", c!"b"] c!"realm join b\n").2 = none ∧
    ((newHandler Version.F34).dispatch 1 [c!"realm", c!"join", c!"a"] c!"realm join a # comment\n").2 ≠ none := by decide +kernel

end Ks
