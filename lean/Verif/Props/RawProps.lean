import Verif.Props.PlainProps
import Verif.Props.ShlexProps
/-!
# C80: the commands that take the text of their line: `auth`, `authconfig`, `authselect` and `realm`
-/
namespace Ks

open Cmd

/-! ## Specification -/

/-- The attributes of `realm`. -/
def realmKeys : List Str := [c!"join_realm", c!"join_args", c!"discover_options"]

/-- What `auth` and `authselect` keep can be written on a line and split into words. -/
def RawValue (a : Str) : Prop :=
  a ≠ [] ∧ Trimmed a ∧ NoBreak a ∧ ∃ ws, shlexSplit (a ++ c!"\n") true = .ok ws

/-- The attribute of the command. -/
def rawKey (n : Str) : Option Str :=
  if n = c!"auth" ∨ n = c!"authconfig" then some c!"authconfig"
  else if n = c!"authselect" then some c!"authselect"
  else none

/-- The settings of the command are text that can be written on a line: for `auth` and `authselect` the text of the line, for `realm` arguments without line breaks. -/
def RawSettings (n : Str) (d : Ns) : Prop :=
  (∃ k a, rawKey n = some k ∧ d.getD k = .str a ∧ RawValue a) ∨ (n = c!"realm" ∧ ∃ ws, d.getD c!"join_args" = .list ws ∧ ∀ w ∈ ws, NoBreak w)

/-- The attributes that are to be restored. -/
def rawKeys (n : Str) : List Str := if n = c!"realm" then realmKeys else (rawKey n).toList

/-! ## A comment and a line -/

/-- A comment and a line that is split into words beginning with `m`: if a new object reads the line and then writes the same text, the text is stable. -/
theorem raw_stable {v : Nat} (hv : Supported v) {n m : Str} {c : Command} (hc : (commandMap v).lookup n = some c) (hm : (commandMap v).lookup m = some c)
    (hla : looksAt (attrName c.name) = []) {hd : Str} (hh : headLine hd = true) {line : Str} {ws : List Str} (hnb : NoBreak line)
    (hb : isBlankOrComment (line ++ c!"\n") = false) (hs : shlexSplit (line ++ c!"\n") true = .ok (m :: ws)) (hne : m ≠ []) (hp : m.head? ≠ some '%')
    {text : Str} {Q : Ns → Prop} (ht : text = hd ++ (line ++ c!"\n"))
    (hrun : ∀ i : Inst CState, i.attrs = c.init → i.currentCmd = m → i.currentLine = line ++ c!"\n" →
      ∃ j x, c.parse (fun _ => none) ws i = (j, .ok x) ∧ c.stored (j, .ok x) = j ∧ c.str j = text ∧ Q (selfOf j)) : ReadBack v n text Q := by
  obtain ⟨-, f1, f2, f3, -⟩ := headLine_facts hh
  have hone : lineItems (line ++ c!"\n") = [.cmd (line ++ c!"\n") (m :: ws)] := by
    have e : splitLines (line ++ c!"\n") = [line ++ c!"\n"] := by
      have := splitLines_line (rest := []) hnb
      simpa [splitLines] using this
    unfold lineItems
    rw [e]
    simp only [List.map_cons, List.map_nil, lineItem, hb, hs]
    rfl
  have hhd : lineItems hd = [.skip hd] := by
    unfold lineItems
    rw [f3, List.map_cons, List.map_nil, (headLine_item hh).1]
  have hitems : lineItems text = [.skip hd, .cmd (line ++ c!"\n") (m :: ws)] := by
    rw [ht, lineItems_append (.inr f2), hhd, hone]; rfl
  have hcmd : CmdLine (line ++ c!"\n") (m :: ws) := by
    refine ⟨hb, hs, ?_⟩
    cases m with
    | nil => exact absurd rfl hne
    | cons a t => exact ⟨a, t, _, rfl, fun e => hp (by rw [e]; rfl)⟩
  obtain ⟨j, x, h1, h2, h3, h4⟩ := hrun (c.new.inst.noted m (line ++ c!"\n") 2) rfl rfl rfl
  refine back_of_class hv hc (t := fun _ => none) (fun a ha => by rw [hla] at ha; cases ha) (.inr ?_) ?_ (i := j) ?_ h3 h4
  · rw [ht]; simp
  · rw [hitems]
    intro it hit
    simp only [List.mem_cons, List.not_mem_nil, or_false] at hit
    rcases hit with rfl | rfl
    · exact (headLine_item hh).2
    · refine ⟨hcmd, ?_⟩
      rw [show (m :: ws).headD [] = m from rfl, hm, hc]
  · rw [hitems]
    simp only [runClass]
    rw [h1]
    simp only
    rw [h2]

theorem raw_strip {m a : Str} (ha : Trimmed a) : strip ((m ++ c!" " ++ a ++ c!"\n").drop m.length) = a := by
  rw [List.append_assoc, List.append_assoc, List.drop_left, ← List.append_assoc]
  exact strip_padded (by decide) (by decide) ha

theorem raw_words {m a : Str} {ws : List Str} (hne : m ≠ []) (hm : m.all safeChar = true) (h : shlexSplit (a ++ c!"\n") true = .ok ws) :
    shlexSplit (m ++ c!" " ++ a ++ c!"\n") true = .ok (m :: ws) := by
  unfold shlexSplit at h ⊢
  have hq : quoteArg m = m := by unfold quoteArg; rw [if_neg hne, if_pos hm]
  have := shlexGo_quoteArg true m (c!" " ++ (a ++ c!"\n"))
  rw [hq] at this
  rw [List.append_assoc, List.append_assoc, this, shlexGo_word_blank true c!" " _ _ (by simp) (by decide), h]
  rfl

theorem notBlank {m rest : Str} (hne : m ≠ []) (h : ∀ c, m.head? = some c → isSpace c = false ∧ c ≠ '#') : isBlankOrComment (m ++ rest) = false := by
  cases m with
  | nil => exact absurd rfl hne
  | cons a t =>
    obtain ⟨h1, h2⟩ := h a rfl
    simp [isBlankOrComment, lstrip, strIsSpace, h1, h2]

theorem noBreak_line {m a : Str} (hm : NoBreak m) (ha : NoBreak a) : NoBreak (m ++ c!" " ++ a) := by
  intro c hc
  simp only [List.mem_append, List.mem_singleton] at hc
  rcases hc with (hc | rfl) | hc
  · exact hm c hc
  · rfl
  · exact ha c hc

/-! ## `auth` and `authselect` -/

theorem auth_text {d : Ns} {a : Str} (ha : a ≠ []) (h : d.getD c!"authconfig" = .str a) :
    FC3_Authconfig.strOut.render d = c!"# System authorization information\n" ++ (c!"auth" ++ c!" " ++ a ++ c!"\n") := by
  obtain ⟨b, t, rfl⟩ := List.exists_cons_of_ne_nil ha
  simp [FC3_Authconfig.strOut, Out.render, pieceText, Cond.eval, Frag.render, h, Val.truthy, Val.fmt]

theorem authselect_text {d : Ns} {a : Str} (ha : a ≠ []) (h : d.getD c!"authselect" = .str a) :
    F28_Authselect.strOut.render d = c!"# System authorization information\n" ++ (c!"authselect" ++ c!" " ++ a ++ c!"\n") := by
  obtain ⟨b, t, rfl⟩ := List.exists_cons_of_ne_nil ha
  simp [F28_Authselect.strOut, Out.render, pieceText, Cond.eval, Frag.render, h, Val.truthy, Val.fmt]

theorem auth_back {v : Nat} (hv : Supported v) {n : Str} {c : Command} (hc : (commandMap v).lookup n = some c) (hm : (commandMap v).lookup c!"auth" = some c)
    (hcls : c = FC3_Authconfig.cls ∨ c = F28_Authconfig.cls) {i : Inst CState} {a : Str} (ha : RawValue a) (hi : (selfOf i).getD c!"authconfig" = .str a) :
    ReadBack v n (c.str i) fun d => d.getD c!"authconfig" = .str a := by
  obtain ⟨h1, h2, h3, ws, h4⟩ := ha
  have hla : looksAt (attrName c.name) = [] := by rcases hcls with rfl | rfl <;> decide
  have htx : ∀ j : Inst CState, (selfOf j).getD c!"authconfig" = .str a → c.str j = c!"# System authorization information\n" ++ (c!"auth" ++ c!" " ++ a ++ c!"\n") := by
    intro j hj
    rcases hcls with rfl | rfl <;> exact auth_text h1 hj
  refine raw_stable hv hc hm hla (hd := c!"# System authorization information\n") (by decide) (noBreak_line (by decide) h3) (by rw [List.append_assoc, List.append_assoc]; exact notBlank (by decide) (by decide)) (raw_words (by decide) (by decide) h4) (by decide) (by decide)
    (htx i hi) fun j hj hcmd hline => ?_
  have hval : strip (j.currentLine.drop j.currentCmd.length) = a := by rw [hcmd, hline]; exact raw_strip h2
  have fin : ∀ k : Inst CState, k.attrs.attrs = j.attrs.attrs.set c!"authconfig" (.str a) → (selfOf k).getD c!"authconfig" = .str a := by
    intro k hk
    rw [selfOf_getD (by decide), hk, Ns.getD_set, if_pos rfl]
  rcases hcls with rfl | rfl
  · refine ⟨{ j with attrs := { j.attrs with attrs := j.attrs.attrs.set c!"authconfig" (.str a) } }, none, ?_, rfl, (htx _ (fin _ rfl)).trans (htx i hi).symm, fin _ rfl⟩
    simp only [FC3_Authconfig.cls, plainCmd, FC3_Authconfig.parse, bind, M.currentLine, M.currentCmd, M.set, hval]
  · refine ⟨{ j with attrs := { j.attrs with attrs := j.attrs.attrs.set c!"authconfig" (.str a), warned := j.attrs.warned ++ [.deprecation c!"The authconfig command will be deprecated, use authselect instead."] } }, none, ?_, rfl, (htx _ (fin _ rfl)).trans (htx i hi).symm, fin _ rfl⟩
    simp only [F28_Authconfig.cls, plainCmd, F28_Authconfig.parse, FC3_Authconfig.parse, bind, M.warn, M.currentLine, M.currentCmd, M.set, hval]

theorem authselect_back {v : Nat} (hv : Supported v) (hc : (commandMap v).lookup c!"authselect" = some F28_Authselect.cls) {i : Inst CState} {a : Str} (ha : RawValue a)
    (hi : (selfOf i).getD c!"authselect" = .str a) :
    ReadBack v c!"authselect" (F28_Authselect.cls.str i) fun d => d.getD c!"authselect" = .str a := by
  obtain ⟨h1, h2, h3, ws, h4⟩ := ha
  have htx : ∀ j : Inst CState, (selfOf j).getD c!"authselect" = .str a → F28_Authselect.cls.str j = c!"# System authorization information\n" ++ (c!"authselect" ++ c!" " ++ a ++ c!"\n") :=
    fun j hj => authselect_text h1 hj
  refine raw_stable hv hc hc (by decide) (hd := c!"# System authorization information\n") (by decide) (noBreak_line (by decide) h3) (by rw [List.append_assoc, List.append_assoc]; exact notBlank (by decide) (by decide)) (raw_words (by decide) (by decide) h4) (by decide) (by decide)
    (htx i hi) fun j hj hcmd hline => ?_
  have hval : strip (j.currentLine.drop j.currentCmd.length) = a := by rw [hcmd, hline]; exact raw_strip h2
  have fin : ∀ k : Inst CState, k.attrs.attrs = j.attrs.attrs.set c!"authselect" (.str a) → (selfOf k).getD c!"authselect" = .str a := by
    intro k hk
    rw [selfOf_getD (by decide), hk, Ns.getD_set, if_pos rfl]
  refine ⟨{ j with attrs := { j.attrs with attrs := j.attrs.attrs.set c!"authselect" (.str a) } }, none, ?_, rfl, (htx _ (fin _ rfl)).trans (htx i hi).symm, fin _ rfl⟩
  simp only [F28_Authselect.cls, plainCmd, F28_Authselect.parse, bind, M.currentLine, M.currentCmd, M.set, hval]

/-! ## `realm` -/

/-- The object of `realm` has joined nothing, or has kept arguments that `getopt` accepts with one realm. -/
def RealmInv (d : Ns) : Prop :=
  (d.getD c!"join_realm" = .none ∧ d.getD c!"join_args" = .list [] ∧ d.getD c!"discover_options" = .list []) ∨
  ∃ args opts r, getopt F19_Realm.longopts args = some (opts, [r]) ∧ d.getD c!"join_realm" = .str r ∧ d.getD c!"join_args" = .list args ∧
    d.getD c!"discover_options" = .list ((opts.filter fun o => F19_Realm.discover.contains o.1).map fun o => o.1 ++ c!"=" ++ o.2)

/-- What a successful line leaves. -/
def realmSet (i : Inst CState) (args : List Str) (opts : List (Str × Str)) (r : Str) : Inst CState :=
  { i with attrs := { i.attrs with attrs := ((i.attrs.attrs.set c!"join_realm" (.str r)).set c!"join_args" (.list args)).set c!"discover_options" (.list ((opts.filter fun o => F19_Realm.discover.contains o.1).map fun o => o.1 ++ c!"=" ++ o.2)) } }

theorem parseJoin_eq (args : List Str) (h : Str → Option Bool) (i : Inst CState) :
    (∃ e, F19_Realm.parseJoin args h i = (i, .error e)) ∨
    ∃ opts r, getopt F19_Realm.longopts args = some (opts, [r]) ∧ F19_Realm.parseJoin args h i = (realmSet i args opts r, .ok ()) := by
  unfold F19_Realm.parseJoin
  cases hg : getopt F19_Realm.longopts args with
  | none => exact .inl ⟨_, rfl⟩
  | some p =>
    obtain ⟨opts, rem⟩ := p
    match rem with
    | [] => exact .inl ⟨_, rfl⟩
    | [r] => exact .inr ⟨opts, r, rfl, by unfold realmSet; rfl⟩
    | _ :: _ :: _ => exact .inl ⟨_, rfl⟩

theorem realmSet_inv {i : Inst CState} {args : List Str} {opts : List (Str × Str)} {r : Str} (h : getopt F19_Realm.longopts args = some (opts, [r])) :
    RealmInv (realmSet i args opts r).attrs.attrs := by
  refine .inr ⟨args, opts, r, h, ?_, ?_, ?_⟩ <;> simp [realmSet, Ns.getD_set]

theorem realmArgs_eq (line : Str) (h : Str → Option Bool) (i : Inst CState) :
    (∃ e, F19_Realm.parseArguments line h i = (i, .error e)) ∨
    ∃ args opts r, ((selfOf i).getD c!"join_realm").truthy = false ∧ shlexSplit line false = .ok (c!"join" :: args) ∧ getopt F19_Realm.longopts args = some (opts, [r]) ∧
      F19_Realm.parseArguments line h i = (realmSet i args opts r, .ok ()) := by
  simp only [F19_Realm.parseArguments, bind, M.self, M.failIf, M.lift]
  cases ht : ((selfOf i).getD c!"join_realm").truthy with
  | true => exact .inl ⟨_, rfl⟩
  | false =>
    cases hs : shlexSplit line false with
    | error e => exact .inl ⟨_, rfl⟩
    | ok ws =>
      match ws with
      | [] => exact .inl ⟨_, rfl⟩
      | w :: args =>
        by_cases hw : w = c!"join"
        · subst hw
          rcases parseJoin_eq args h i with ⟨e, he⟩ | ⟨opts, r, hg, he⟩
          · exact .inl ⟨e, he⟩
          · exact .inr ⟨args, opts, r, rfl, rfl, hg, he⟩
        · left
          simp only [Except.mapError, hw, if_false]
          exact ⟨_, rfl⟩

theorem realm_keep (args : List Str) (h : Str → Option Bool) (i : Inst CState) (hi : RealmInv i.attrs.attrs) :
    RealmInv (F19_Realm.parse args h i).1.attrs.attrs := by
  unfold F19_Realm.parse
  show RealmInv (F19_Realm.parseArguments (strip (i.currentLine.drop i.currentCmd.length)) h i).1.attrs.attrs
  generalize strip (i.currentLine.drop i.currentCmd.length) = line
  rcases realmArgs_eq line h i with ⟨e, he⟩ | ⟨args, opts, r, -, -, hg, he⟩
  · rw [he]; exact hi
  · rw [he]; exact realmSet_inv hg

theorem realm_ok : F19_Realm.cls.Ok RealmInv fun _ => ParseErrOr fun e => ∃ s, e = .shlex s := by
  have ok := F19_Realm.ok
  refine ⟨.inl ⟨rfl, rfl, rfl⟩, fun hn h args i hs _ => ok.frame hn h args i hs trivial, fun h args i _ hi => ?_, fun h args i hs _ => ok.err h args i hs trivial, ok.add, ok.seen,
    fun h args i hs _ => ok.mark h args i hs trivial⟩
  have hp : (F19_Realm.cls.parse h args i).1 = (F19_Realm.parse args h i).1 := by
    show (match F19_Realm.parse args h i with | (i, .error e) => (i, .error e) | (i, .ok _) => (i, .ok none) : Inst CState × Except Exc (Option Ns)).1 = _
    split <;> (rename_i hr; rw [hr])
  rw [hp]
  exact realm_keep args h i hi

/-! ### Shell quoting -/

theorem shellQuote_eq (s : Str) : shellQuote s = quoteArg s := by
  unfold shellQuote quoteArg
  cases s with
  | nil => rfl
  | cons a t =>
    have : (shSafe : Char → Bool) = safeChar := rfl
    rw [this, List.flatMap_def]
    rfl

theorem safe_not_space {c : Char} (h : safeChar c = true) : isSpace c = false := by
  have key : c.toNat = 37 ∨ (43 ≤ c.toNat ∧ c.toNat ≤ 122) := by
    simp only [safeChar, Char.isAlphanum, Char.isAlpha, Char.isUpper, Char.isLower, Char.isDigit, Bool.or_eq_true, Bool.and_eq_true, decide_eq_true_eq, beq_iff_eq, ge_iff_le, UInt32.le_iff_toNat_le] at h
    rcases h with (((((((((((h | h) | h) | rfl) | rfl) | rfl) | rfl) | rfl) | rfl) | rfl) | rfl) | rfl) | rfl <;>
      first | decide | (right; have e : c.toNat = c.val.toNat := rfl; simp at h; omega)
  simp only [isSpace, Bool.or_eq_false_iff, Bool.and_eq_false_iff, decide_eq_false_iff_not, beq_eq_false_iff_ne]
  omega

theorem quoteArg_last (s : Str) : quoteArg s ≠ [] ∧ ∀ c, (quoteArg s).getLast? = some c → isSpace c = false := by
  unfold quoteArg
  split
  · exact ⟨by decide, by decide⟩
  · rename_i hne
    split
    · rename_i hs
      refine ⟨hne, fun c hc => ?_⟩
      have hm := List.mem_of_getLast? hc
      have := List.all_eq_true.1 hs c hm
      exact safe_not_space this
    · refine ⟨by simp, fun c hc => ?_⟩
      rw [List.getLast?_append] at hc
      simp at hc
      subst hc; decide

theorem quoteArg_noBreak {s : Str} (h : NoBreak s) : NoBreak (quoteArg s) := by
  unfold quoteArg
  split
  · decide
  · split
    · exact h
    · intro c hc
      simp only [List.mem_append, List.mem_singleton, List.mem_flatten, List.mem_map] at hc
      rcases hc with (rfl | ⟨l, ⟨d, hd, rfl⟩, hl⟩) | rfl
      · decide
      · split at hl
        · exact (by decide : ∀ c ∈ c!"'\"'\"'", isLineBreak c = false) c hl
        · rw [List.mem_singleton] at hl; subst hl; exact h _ hd
      · decide

theorem join_last {ws : List Str} (hne : ws ≠ []) (h : ∀ w ∈ ws, w ≠ [] ∧ ∀ c, w.getLast? = some c → isSpace c = false) :
    joinWith c!" " ws ≠ [] ∧ ∀ c, (joinWith c!" " ws).getLast? = some c → isSpace c = false := by
  induction ws with
  | nil => exact absurd rfl hne
  | cons x t ih =>
    cases t with
    | nil => exact h x (by simp)
    | cons y t =>
      obtain ⟨h1, h2⟩ := ih (by simp) fun w hw => h w (List.mem_cons_of_mem _ hw)
      refine ⟨by simp [joinWith], fun c hc => h2 c ?_⟩
      rw [joinWith, List.getLast?_append] at hc
      obtain ⟨d, hd⟩ := Option.isSome_iff_exists.1 (List.getLast?_isSome.2 h1)
      rw [hd] at hc ⊢
      simpa using hc

theorem joined_noBreak {ws : List Str} (h : ∀ w ∈ ws, NoBreak w) : NoBreak (joinWith c!" " ws) := by
  induction ws with
  | nil => intro c hc; cases hc
  | cons x t ih =>
    cases t with
    | nil => exact h x (by simp)
    | cons y t =>
      exact noBreak_line (h x (by simp)) (ih fun w hw => h w (List.mem_cons_of_mem _ hw))

/-! ### The text of `realm` -/

theorem realm_text {d : Ns} {args : List Str} (ha : args ≠ []) (h : d.getD c!"join_args" = .list args) :
    F19_Realm.strText d = c!"# Realm or domain membership\n" ++ (c!"realm" ++ c!" " ++ (c!"join" ++ c!" " ++ joinWith c!" " (args.map quoteArg)) ++ c!"\n") := by
  obtain ⟨b, t, rfl⟩ := List.exists_cons_of_ne_nil ha
  have e : (shellQuote : Str → Str) = quoteArg := funext shellQuote_eq
  simp only [F19_Realm.strText, h, Val.truthy, Val.items, e]
  simp

theorem realm_back {v : Nat} (hv : Supported v) (hc : (commandMap v).lookup c!"realm" = some F19_Realm.cls) {i : Inst CState} (hi : RealmInv i.attrs.attrs)
    (hnb : ∀ w ∈ ((selfOf i).getD c!"join_args").items, NoBreak w) :
    ReadBack v c!"realm" (F19_Realm.cls.str i) fun d => ∀ k ∈ realmKeys, d.getD k = (selfOf i).getD k := by
  have hself : ∀ (j : Inst CState), ∀ k ∈ realmKeys, (selfOf j).getD k = j.attrs.attrs.getD k := by
    intro j k hk
    simp only [realmKeys, List.mem_cons, List.not_mem_nil, or_false] at hk
    rcases hk with rfl | rfl | rfl <;> exact selfOf_getD (by decide)
  rcases hi with ⟨h1, h2, h3⟩ | ⟨args, opts, r, hg, h1, h2, h3⟩
  · have h0 : F19_Realm.cls.str i = [] := by
      show F19_Realm.strText (selfOf i) = []
      unfold F19_Realm.strText
      rw [hself i _ (by decide), h2]
      rfl
    rw [h0]
    refine back_of_class hv hc (t := (newHandler v).seenAttr) (fun _ _ => rfl) (.inl rfl) (fun it hit => by cases hit) (i := F19_Realm.cls.new.inst) rfl rfl ?_
    intro k hk
    rw [hself i k hk]
    simp only [realmKeys, List.mem_cons, List.not_mem_nil, or_false] at hk
    rcases hk with rfl | rfl | rfl
    · rw [h1]; rfl
    · rw [h2]; rfl
    · rw [h3]; rfl
  · have hne : args ≠ [] := by rintro rfl; simp [getopt] at hg
    rw [hself i _ (by decide), h2] at hnb
    have hq := join_last (ws := args.map quoteArg) (by simpa using hne) fun w hw => by
      obtain ⟨a, -, rfl⟩ := List.mem_map.1 hw
      exact quoteArg_last a
    have hqn : NoBreak (joinWith c!" " (args.map quoteArg)) := joined_noBreak fun w hw => by
      obtain ⟨a, ha, rfl⟩ := List.mem_map.1 hw
      exact quoteArg_noBreak (hnb a ha)
    have htr : Trimmed (c!"join" ++ c!" " ++ joinWith c!" " (args.map quoteArg)) := by
      refine ⟨by simp; decide, fun c hc => hq.2 c ?_⟩
      rw [List.getLast?_append] at hc
      obtain ⟨d, hd⟩ := Option.isSome_iff_exists.1 (List.getLast?_isSome.2 hq.1)
      rw [hd] at hc ⊢
      simpa using hc
    have hcat : ∀ (ws : List Str) (w : Str), ws ≠ [] → w ++ c!" " ++ joinWith c!" " ws = joinWith c!" " (w :: ws) := by
      intro ws w hw
      cases ws with
      | nil => exact absurd rfl hw
      | cons y t => rfl
    have hs1 : shlexSplit (c!"join" ++ c!" " ++ joinWith c!" " (args.map quoteArg)) false = .ok (c!"join" :: args) := by
      have := C08_quote_roundtrip false (c!"join" :: args) [] (by simp)
      rw [List.append_nil, List.map_cons] at this
      rw [hcat _ _ (by simpa using hne)]
      exact this
    have hs2 : shlexSplit (c!"realm" ++ c!" " ++ (c!"join" ++ c!" " ++ joinWith c!" " (args.map quoteArg)) ++ c!"\n") true = .ok (c!"realm" :: c!"join" :: args) := by
      have := C08_quote_roundtrip true (c!"realm" :: c!"join" :: args) c!"\n" (by decide)
      rw [List.map_cons, List.map_cons] at this
      rw [hcat _ _ (by simpa using hne), hcat _ _ (by simp)]
      exact this
    have htx : ∀ j : Inst CState, j.attrs.attrs.getD c!"join_args" = .list args →
        F19_Realm.cls.str j = c!"# Realm or domain membership\n" ++ (c!"realm" ++ c!" " ++ (c!"join" ++ c!" " ++ joinWith c!" " (args.map quoteArg)) ++ c!"\n") :=
      fun j hj => realm_text hne (by rw [hself j _ (by decide)]; exact hj)
    refine raw_stable hv hc hc (by decide) (hd := c!"# Realm or domain membership\n") (by decide) (noBreak_line (by decide) (noBreak_line (by decide) hqn))
      (by rw [List.append_assoc, List.append_assoc]; exact notBlank (by decide) (by decide)) hs2 (by decide) (by decide) (htx i h2) fun j hj hcmd hline => ?_
    have hval : strip (j.currentLine.drop j.currentCmd.length) = c!"join" ++ c!" " ++ joinWith c!" " (args.map quoteArg) := by rw [hcmd, hline]; exact raw_strip htr
    have hfirst : ((selfOf j).getD c!"join_realm").truthy = false := by
      rw [hself j _ (by decide), hj]; rfl
    have hp : F19_Realm.parse (c!"join" :: args) (fun _ => none) j = (realmSet j args opts r, .ok ()) := by
      unfold F19_Realm.parse
      show F19_Realm.parseArguments (strip (j.currentLine.drop j.currentCmd.length)) (fun _ => none) j = _
      rw [hval]
      simp only [F19_Realm.parseArguments, bind, M.self, M.failIf, M.lift, hfirst, hs1]
      show F19_Realm.parseJoin args (fun _ => none) j = _
      unfold F19_Realm.parseJoin
      rw [hg]
      rfl
    have hset : ∀ k ∈ realmKeys, (realmSet j args opts r).attrs.attrs.getD k = i.attrs.attrs.getD k := by
      intro k hk
      simp only [realmKeys, List.mem_cons, List.not_mem_nil, or_false] at hk
      rcases hk with rfl | rfl | rfl
      · rw [h1]; simp [realmSet, Ns.getD_set]
      · rw [h2]; simp [realmSet, Ns.getD_set]
      · rw [h3]; simp [realmSet, Ns.getD_set]
    refine ⟨realmSet j args opts r, none, ?_, rfl, ?_, fun k hk => ?_⟩
    · show (match F19_Realm.parse (c!"join" :: args) (fun _ => none) j with | (i, .error e) => (i, .error e) | (i, .ok _) => (i, .ok none) : Inst CState × Except Exc (Option Ns)) = _
      rw [hp]
    · rw [htx i h2, htx _ ((hset _ (by decide)).trans h2)]
    · rw [hself _ k hk, hself i k hk]
      exact hset k hk

/-! ## The classes -/

theorem auth_class : ∀ y ∈ commandMaps, (y.2.lookup c!"auth" = some FC3_Authconfig.cls ∧ y.2.lookup c!"authconfig" = some FC3_Authconfig.cls) ∨
    (y.2.lookup c!"auth" = some F28_Authconfig.cls ∧ y.2.lookup c!"authconfig" = some F28_Authconfig.cls) := by
  unfold commandMaps
  repeat' (first | exact List.forall_mem_nil _ | refine List.forall_mem_cons.2 ⟨?_, ?_⟩)
  all_goals first | exact .inl ⟨rfl, rfl⟩ | exact .inr ⟨rfl, rfl⟩

theorem authselect_class : ∀ y ∈ commandMaps, y.2.lookup c!"authselect" = none ∨ y.2.lookup c!"authselect" = some F28_Authselect.cls := by
  unfold commandMaps
  repeat' (first | exact List.forall_mem_nil _ | refine List.forall_mem_cons.2 ⟨?_, ?_⟩)
  all_goals first | exact .inl rfl | exact .inr rfl

theorem realm_class : ∀ y ∈ commandMaps, y.2.lookup c!"realm" = none ∨ y.2.lookup c!"realm" = some F19_Realm.cls := by
  unfold commandMaps
  repeat' (first | exact List.forall_mem_nil _ | refine List.forall_mem_cons.2 ⟨?_, ?_⟩)
  all_goals first | exact .inl rfl | exact .inr rfl

/-! ## C80 -/

theorem raw_back {v : Nat} (hv : Supported v) {n : Str} {c : Command} (hc : (commandMap v).lookup n = some c) {i : Inst CState}
    (hinv : ∀ I E, Command.Ok c I E → I i.attrs.attrs) (hd : RawSettings n (selfOf i)) :
    ReadBack v n (c.str i) fun d => ∀ k ∈ rawKeys n, d.getD k = (selfOf i).getD k := by
  have hm := supported_mem hv
  rcases hd with ⟨k, a, hk, ha, hr⟩ | ⟨rfl, ws, hw, hn⟩
  · unfold rawKey at hk
    split at hk
    · rename_i hn
      cases hk
      have hkeys : ∀ d : Ns, d.getD c!"authconfig" = .str a → ∀ k ∈ rawKeys n, d.getD k = (selfOf i).getD k := by
        intro d hd k hk
        have : rawKeys n = [c!"authconfig"] := by rcases hn with rfl | rfl <;> rfl
        rw [this, List.mem_singleton] at hk
        rw [hk, hd, ha]
      have hcls := auth_class _ hm
      have hau : (commandMap v).lookup c!"auth" = some c ∧ (c = FC3_Authconfig.cls ∨ c = F28_Authconfig.cls) := by
        rcases hn with rfl | rfl
        · refine ⟨hc, ?_⟩
          rcases hcls with ⟨h1, -⟩ | ⟨h1, -⟩
          · exact .inl (Option.some.inj (hc.symm.trans h1))
          · exact .inr (Option.some.inj (hc.symm.trans h1))
        · rcases hcls with ⟨h1, h2⟩ | ⟨h1, h2⟩
          · obtain rfl := Option.some.inj (hc.symm.trans h2)
            exact ⟨h1, .inl rfl⟩
          · obtain rfl := Option.some.inj (hc.symm.trans h2)
            exact ⟨h1, .inr rfl⟩
      exact (auth_back hv hc hau.1 hau.2 hr ha).imp hkeys
    · split at hk
      · rename_i hn
        subst hn
        cases hk
        rcases authselect_class _ hm with h | h
        · cases h.symm.trans hc
        · obtain rfl := Option.some.inj (hc.symm.trans h)
          refine (authselect_back hv hc hr ha).imp fun d hd k hk => ?_
          have : rawKeys c!"authselect" = [c!"authselect"] := rfl
          rw [this, List.mem_singleton] at hk
          rw [hk, hd, ha]
      · cases hk
  · rcases realm_class _ hm with h | h
    · cases h.symm.trans hc
    · obtain rfl := Option.some.inj (hc.symm.trans h)
      exact realm_back hv hc (hinv _ _ realm_ok) (by rw [hw]; exact hn)

/-- C80: what `auth`, `authconfig`, `authselect` and `realm` write in any session is stable, and its settings are restored, if the text they keep can be written on a line. -/
theorem C80_restores {v : Nat} (hv : Supported v) {h : Handler CState Ns} (s : Session v h) {n : Str} (hd : RawSettings n (attrsOf h n)) :
    StableText v n (textOf h n) ∧
    ∀ k ∈ rawKeys n, (attrsOf (runCommands Handler.dispatch 0 (lineItems (textOf h n)) (newHandler v)).1 n).getD k = (attrsOf h n).getD k := by
  show ReadBack v n (textOf h n) (fun d => ∀ k ∈ rawKeys n, d.getD k = (attrsOf h n).getD k)
  have hinv := session_inv hv s
  cases hob : objectOf h n with
  | none =>
    unfold attrsOf at hd
    rw [hob] at hd
    rcases hd with ⟨k, a, -, ha, -⟩ | ⟨-, ws, hw, -⟩
    · cases ha
    · cases hw
  | some o =>
    have ho := hob
    unfold attrsOf textOf at *
    rw [hob] at hd ⊢
    unfold objectOf at ho
    split at ho
    · rename_i r hlk
      obtain ⟨o', ho', hmem⟩ := hinv.served n r hlk
      rw [ho] at ho'; cases ho'
      exact raw_back hv ((mem_iff_lookup (supported_mapOk hv).dict).1 hmem) (hinv.objs r o ho).2 hd
    · cases ho

/-- C80: `C78_file` with less to ask. -/
theorem C80_file {v : Nat} (hv : Supported v) (hl : v ∉ liloVersions) (ls : List (Nat × List Str × Str))
    (hst : ∀ n c, (commandMap v).lookup n = some c → c.prio ≠ none → ¬ Unread (readLines v ls) n → fixedTextsOf v n = none → ¬ WordSettings v n (attrsOf (readLines v ls) n) →
      ¬ RawSettings n (attrsOf (readLines v ls) n) → ¬ (textOf (readLines v ls) n = [] ∧ c.str c.new.inst = []) →
      (ListCommand v n ∧ n ∈ lossless.map (·.1) ∧ ∀ d ∈ dataOf (readLines v ls) n, WritesAll v n d ∧ OneLine v n d) ∨
      (OneLineOf v ls n ∧ KeepsAll v n (attrsOf (readLines v ls) n) ∧ OneCommand (textOf (readLines v ls) n)) ∨ StableText v n (textOf (readLines v ls) n))
    (hR : ∀ n, textOf (readLines v ls) n ≠ [] → ∀ a ∈ rivals n, textOf (readLines v ls) a = []) (k : Nat) :
    let r := runCommands Handler.dispatch k (lineItems (readLines v ls).str) (newHandler v)
    r.2 = none ∧ r.1.str = (readLines v ls).str := by
  refine C78_file hv hl ls (fun n c hc hp hu hf hw he => ?_) hR k
  by_cases h1 : RawSettings n (attrsOf (readLines v ls) n)
  · exact .inr (.inr (C80_restores hv (readLines_session v ls) h1).1)
  · exact hst n c hc hp hu hf hw h1 he

/-! ### The hypotheses can be met -/

/-- A file with the three commands. -/
def rawFile : List (Nat × List Str × Str) :=
  [(1, [c!"authconfig", c!"--enablemd5", c!"a b"], c!"authconfig  --enablemd5 'a b' # c\n"), (2, [c!"authselect", c!"select", c!"sssd"], c!"authselect select sssd\n"),
   (3, [c!"realm", c!"join", c!"--client-software=sssd", c!"--computer-ou", c!"OU=a b", c!"it's"], c!"realm join --client-software=sssd --computer-ou 'OU=a b' \"it's\"\n")]

theorem rawFile_text :
    (readLines Version.F34 rawFile).str =
      c!"# Realm or domain membership\nrealm join --client-software=sssd --computer-ou 'OU=a b' 'it'\"'\"'s'\n# System authorization information\nauth --enablemd5 'a b' # c\n# System authorization information\nauthselect select sssd\n# System bootloader configuration\nbootloader --location=none\n" := by decide +kernel

theorem rawFile_attrs :
    let h := readLines Version.F34 rawFile
    (attrsOf h c!"auth").getD c!"authconfig" = .str c!"--enablemd5 'a b' # c" ∧ (attrsOf h c!"authconfig").getD c!"authconfig" = .str c!"--enablemd5 'a b' # c" ∧
    (attrsOf h c!"authselect").getD c!"authselect" = .str c!"select sssd" ∧ (attrsOf h c!"realm").getD c!"join_realm" = .str c!"it's" ∧
    (attrsOf h c!"realm").getD c!"join_args" = .list [c!"--client-software=sssd", c!"--computer-ou", c!"OU=a b", c!"it's"] ∧
    (attrsOf h c!"realm").getD c!"discover_options" = .list [c!"--client-software=sssd"] := by decide +kernel

theorem rawFile_settings : ∀ n ∈ [c!"auth", c!"authconfig", c!"authselect", c!"realm"], RawSettings n (attrsOf (readLines Version.F34 rawFile) n) := by
  obtain ⟨h1, h2, h3, -, h5, -⟩ := rawFile_attrs
  generalize readLines Version.F34 rawFile = h at *
  have r1 : RawValue c!"--enablemd5 'a b' # c" := ⟨by decide, ⟨by decide, by decide⟩, by decide, _, rfl⟩
  have r2 : RawValue c!"select sssd" := ⟨by decide, ⟨by decide, by decide⟩, by decide, _, rfl⟩
  intro n hn
  simp only [List.mem_cons, List.not_mem_nil, or_false] at hn
  rcases hn with rfl | rfl | rfl | rfl
  · exact .inl ⟨_, _, rfl, h1, r1⟩
  · exact .inl ⟨_, _, rfl, h2, r1⟩
  · exact .inl ⟨_, _, rfl, h3, r2⟩
  · exact .inr ⟨rfl, _, h5, by decide⟩

theorem rawFile_rest : (commandMap Version.F34).all (fun x => decide (Unread (readLines Version.F34 rawFile) x.1) || [c!"auth", c!"authconfig", c!"authselect", c!"realm"].contains x.1) = true := by decide +kernel

/-! ### What is not restored -/

/-- The name is cut off from the line as it was read (/repo/pykickstart/parser.py:585, /repo/pykickstart/commands/authconfig.py:46): with blanks before the name, the end of the name is taken for the setting. -/
theorem C80_leading_blank :
    textOf (readLines Version.F34 [(1, [c!"auth", c!"--enablemd5"], c!"  auth --enablemd5\n")]) c!"auth" = c!"# System authorization information\nauth th --enablemd5\n" ∧
    textOf (readLines Version.F34 [(1, [c!"realm", c!"join", c!"a"], c!" realm join a\n")]) c!"realm" = [] ∧
    textOf (readLines Version.F34 [(1, [c!"realm", c!"join", c!"a"], c!"realm join a\n")]) c!"realm" = c!"# Realm or domain membership\nrealm join a\n" := by decide +kernel

end Ks
