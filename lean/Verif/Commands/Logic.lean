import Verif.Commands.Base
import Verif.Props.ArgparseProps
import Verif.ArgparseShape
/-!
# Rules for reasoning about `parse` methods

`M.Good E m Q`: whatever the state, `m` leaves alone what `ObjFrame` says, an exception it raises is
one of `E` (given the line number), and a value it returns satisfies `Q`.
-/
namespace Ks

/-- What a `parse` method leaves alone: what the dispatcher set, and the data list; warnings are only
added. -/
structure ObjFrame (i j : Inst CState) : Prop where
  seen : j.seen = i.seen
  lineno : j.lineno = i.lineno
  cmd : j.currentCmd = i.currentCmd
  line : j.currentLine = i.currentLine
  data : j.attrs.data = i.attrs.data
  warned : ∃ w, j.attrs.warned = i.attrs.warned ++ w

theorem ObjFrame.refl (i : Inst CState) : ObjFrame i i := ⟨rfl, rfl, rfl, rfl, rfl, [], by simp⟩

theorem ObjFrame.trans {i j k : Inst CState} (a : ObjFrame i j) (b : ObjFrame j k) : ObjFrame i k := by
  obtain ⟨w, hw⟩ := a.warned
  obtain ⟨w', hw'⟩ := b.warned
  exact ⟨b.seen.trans a.seen, b.lineno.trans a.lineno, b.cmd.trans a.cmd, b.line.trans a.line, b.data.trans a.data,
    w ++ w', by rw [hw', hw, List.append_assoc]⟩

/-- The commands whose `seen` attribute other commands read without asking whether they exist. -/
def storageCmds : List Str := [c!"autopart", c!"partition", c!"raid", c!"volgroup", c!"logvol"]

/-- The handler has these commands. -/
def HasStorage (h : Str → Option Bool) : Prop := ∀ n ∈ storageCmds, (h n).isSome

/-- `KickstartParseError` with that line number. -/
def ParseErr (n : Nat) (e : Exc) : Prop := ∃ tag, e = .parse tag (some (n : Int))

/-- `KickstartParseError` with that line number or without any. -/
def ParseErr' (n : Nat) (e : Exc) : Prop := ∃ tag ln, e = .parse tag ln ∧ (ln = some (n : Int) ∨ ln = none)

/-- See the top of the file. -/
def M.Good {α : Type} (E : Nat → Exc → Prop) (m : M α) (Q : α → Prop) : Prop :=
  ∀ h i, HasStorage h → ObjFrame i (m h i).1 ∧ (∀ a, (m h i).2 = .ok a → Q a) ∧ ∀ e, (m h i).2 = .error e → E i.lineno e

/-- The sets of exceptions that contain what `self.lineno` errors are. -/
class ErrSet (E : Nat → Exc → Prop) : Prop where
  parse : ∀ n tag, E n (.parse tag (some (n : Int)))

instance : ErrSet ParseErr := ⟨fun _ tag => ⟨tag, rfl⟩⟩
instance : ErrSet ParseErr' := ⟨fun _ tag => ⟨tag, _, rfl, .inl rfl⟩⟩

variable {α β : Type} {E : Nat → Exc → Prop}

theorem good_pure {a : α} {Q : α → Prop} (h : Q a) : M.Good E (pure a) Q :=
  fun _ i _ => ⟨.refl i, fun _ e => by cases e; exact h, fun _ e => by cases e⟩

theorem good_bind {m : M α} {f : α → M β} {P : α → Prop} {Q : β → Prop} (hm : M.Good E m P) (hf : ∀ a, P a → M.Good E (f a) Q) :
    M.Good E (m >>= f) Q := by
  intro h i hs
  obtain ⟨h1, h2, h3⟩ := hm h i hs
  show ObjFrame i ((match m h i with | (i, .error e) => (i, .error e) | (i, .ok a) => f a h i : Inst CState × Except Exc β)).1 ∧ _
  simp only [bind]
  match hr : m h i with
  | (j, .error e) =>
    rw [hr] at h1 h3
    exact ⟨h1, fun _ e => (nomatch e), fun _ e' => by cases e'; exact h3 _ rfl⟩
  | (j, .ok a) =>
    rw [hr] at h1 h2
    obtain ⟨g1, g2, g3⟩ := hf a (h2 a rfl) h j hs
    refine ⟨h1.trans g1, g2, fun e he => ?_⟩
    have := g3 e he
    rwa [show j.lineno = i.lineno from h1.lineno] at this

theorem good_weaken {m : M α} {P Q : α → Prop} (hm : M.Good E m P) (h : ∀ a, P a → Q a) : M.Good E m Q :=
  fun s i hs => ⟨(hm s i hs).1, fun a ha => h a ((hm s i hs).2.1 a ha), (hm s i hs).2.2⟩

theorem good_errs {E' : Nat → Exc → Prop} {m : M α} {Q : α → Prop} (hm : M.Good E m Q) (h : ∀ n e, E n e → E' n e) : M.Good E' m Q :=
  fun s i hs => ⟨(hm s i hs).1, (hm s i hs).2.1, fun e he => h _ _ ((hm s i hs).2.2 e he)⟩

theorem good_self : M.Good E M.self fun _ => True :=
  fun _ i _ => ⟨.refl i, fun _ _ => trivial, fun _ e => by cases e⟩
theorem good_currentCmd : M.Good E M.currentCmd fun _ => True :=
  fun _ i _ => ⟨.refl i, fun _ _ => trivial, fun _ e => by cases e⟩
theorem good_currentLine : M.Good E M.currentLine fun _ => True :=
  fun _ i _ => ⟨.refl i, fun _ _ => trivial, fun _ e => by cases e⟩
theorem good_lineno : M.Good E M.lineno fun _ => True :=
  fun _ i _ => ⟨.refl i, fun _ _ => trivial, fun _ e => by cases e⟩
theorem good_dataList : M.Good E M.dataList fun _ => True :=
  fun _ i _ => ⟨.refl i, fun _ _ => trivial, fun _ e => by cases e⟩
theorem good_hasCmd (n : Str) : M.Good E (M.hasCmd n) fun _ => True :=
  fun _ i _ => ⟨.refl i, fun _ _ => trivial, fun _ e => by cases e⟩
theorem good_usedCmd (n : Str) : M.Good E (M.usedCmd n) fun _ => True :=
  fun _ i _ => ⟨.refl i, fun _ _ => trivial, fun _ e => by cases e⟩
theorem good_seenCmd {n : Str} (hn : n ∈ storageCmds) : M.Good E (M.seenCmd n) fun _ => True := by
  intro h i hs
  have := hs n hn
  unfold M.seenCmd
  cases hb : h n with
  | none => rw [hb] at this; cases this
  | some b => exact ⟨.refl i, fun _ _ => trivial, fun _ e => by cases e⟩
theorem good_err [ErrSet E] {tag : Str} {Q : α → Prop} : M.Good E (M.err tag) Q :=
  fun _ i _ => ⟨.refl i, fun _ e => (nomatch e), fun _ e => by cases e; exact ErrSet.parse _ _⟩
theorem good_warn (w : Warn) : M.Good E (M.warn w) fun _ => True :=
  fun _ _ _ => ⟨⟨rfl, rfl, rfl, rfl, rfl, [w], rfl⟩, fun _ _ => trivial, fun _ e => by cases e⟩
theorem good_set (k : Str) (v : Val) : M.Good E (M.set k v) fun _ => True :=
  fun _ _ _ => ⟨⟨rfl, rfl, rfl, rfl, rfl, [], (List.append_nil _).symm⟩, fun _ _ => trivial, fun _ e => by cases e⟩
theorem good_del (k : Str) : M.Good E (M.del k) fun _ => True :=
  fun _ _ _ => ⟨⟨rfl, rfl, rfl, rfl, rfl, [], (List.append_nil _).symm⟩, fun _ _ => trivial, fun _ e => by cases e⟩
theorem good_setToSelf (ns : Ns) : M.Good E (M.setToSelf ns) fun _ => True :=
  fun _ _ _ => ⟨⟨rfl, rfl, rfl, rfl, rfl, [], (List.append_nil _).symm⟩, fun _ _ => trivial, fun _ e => by cases e⟩

theorem good_failIf [ErrSet E] {c : Bool} {tag : Str} : M.Good E (M.failIf c tag) fun _ => c = false := by
  unfold M.failIf
  cases c
  · exact good_pure rfl
  · exact good_err

theorem good_failIfNoLine {c : Bool} {tag : Str} : M.Good ParseErr' (M.failIfNoLine c tag) fun _ => c = false := by
  unfold M.failIfNoLine
  cases c
  · exact good_pure rfl
  · exact fun _ i _ => ⟨.refl i, fun _ e => (nomatch e), fun _ e => by cases e; exact ⟨tag, none, rfl, .inr rfl⟩⟩

theorem good_failIfM [ErrSet E] {c : M Bool} {tag : Str} (hc : M.Good E c fun _ => True) : M.Good E (M.failIfM c tag) fun _ => True :=
  good_bind hc fun _ _ => good_weaken good_failIf fun _ _ => trivial

theorem good_when {c : Bool} {m : M Unit} {Q : Unit → Prop} (hm : c = true → M.Good E m Q) (h : c = false → Q ()) : M.Good E (M.when c m) Q := by
  unfold M.when
  cases c
  · exact good_pure (h rfl)
  · exact hm rfl

theorem good_cond {c : M Bool} {a b : M α} {Q : α → Prop} (hc : M.Good E c fun _ => True) (ha : M.Good E a Q) (hb : M.Good E b Q) :
    M.Good E (M.cond c a b) Q :=
  good_bind hc fun x _ => by cases x <;> assumption

theorem good_assert {c : Bool} (h : c = true) : M.Good E (M.assert c) fun _ => c = true := by
  subst h; exact good_pure rfl

theorem good_lift {x : Except Exc α} {Q : α → Prop} (hx : ∃ a, x = .ok a) (h : ∀ a, x = .ok a → Q a) : M.Good E (M.lift x) Q := by
  obtain ⟨a, rfl⟩ := hx
  exact fun _ i _ => ⟨.refl i, fun _ e => by cases e; exact h _ rfl, fun _ e => by cases e⟩

/-- A converter raises nothing but what `argparse` turns into an error. -/
theorem Ty.run_err (t : Ty) (s : Str) (e : Exc) (h : t.run s = .error e) : e = .value ∨ e = .type := by
  cases t <;> simp only [Ty.run] at h
  all_goals first
    | (cases h)
    | (simp only [tyInt] at h; split at h <;> cases h; exact .inl rfl)
    | (simp only [tyBool] at h; split at h <;> cases h; exact .inl rfl)
    | (split at h <;> cases h; exact .inl rfl)

theorem OptParser.typesOk (p : OptParser) (l : Option Int) : p.TypesOk l := by
  have : ∀ a : Action, a.TypeOk l := fun a s e h => by
    rcases Ty.run_err a.ty s e h with h | h
    · exact .inl h
    · exact .inr (.inl h)
  exact ⟨fun a _ => this a, fun kv _ => this kv.2⟩

theorem good_parseKnown [ErrSet E] {op : OptParser} {args : List Str} :
    M.Good E (M.parseKnown op args) fun r => ∃ l : Option Int, op.parseKnown l args = .ok r := by
  intro h i _
  refine ⟨⟨rfl, rfl, rfl, rfl, rfl, _, rfl⟩, fun a ha => ⟨_, ha⟩, fun e he => ?_⟩
  obtain ⟨tag, rfl⟩ := C10_parse_known_error op _ args (op.typesOk _) e he
  exact ErrSet.parse _ _

theorem good_parseArgs [ErrSet E] {op : OptParser} {args : List Str} :
    M.Good E (M.parseArgs op args) fun r => ∃ l : Option Int, op.parseArgs l args = .ok r := by
  intro h i _
  refine ⟨⟨rfl, rfl, rfl, rfl, rfl, _, rfl⟩, fun a ha => ⟨_, ha⟩, fun e he => ?_⟩
  obtain ⟨tag, rfl⟩ := C10_parse_args_error op _ args (op.typesOk _) e he
  exact ErrSet.parse _ _

/-- `KickstartParseError` with that line number, or an exception of `P`. -/
def ParseErrOr (P : Exc → Prop) (n : Nat) (e : Exc) : Prop := ParseErr n e ∨ P e

instance {P : Exc → Prop} : ErrSet (ParseErrOr P) := ⟨fun _ tag => .inl ⟨tag, rfl⟩⟩

theorem good_liftE {x : Except Exc α} (h : ∀ n e, x = .error e → E n e) : M.Good E (M.lift x) fun _ => True := by
  intro _ i _
  exact ⟨.refl i, fun _ _ => trivial, fun e he => h _ e he⟩

theorem good_throw {e : Exc} {Q : α → Prop} (h : ∀ n, E n e) : M.Good E (M.throw e) Q :=
  fun _ i _ => ⟨.refl i, fun _ e => (nomatch e), fun _ e => by cases e; exact h _⟩

theorem M.Good.run {m : M α} {Q : α → Prop} (hm : M.Good E m Q) (h : Str → Option Bool) (i : Inst CState) (hs : HasStorage h) :
    ObjFrame i (m h i).1 ∧ (∀ a, (m h i).2 = .ok a → Q a) ∧ ∀ e, (m h i).2 = .error e → E i.lineno e := hm h i hs

attribute [irreducible] M.Good

theorem good_pureT {a : α} : M.Good E (pure a) fun _ => True := good_pure trivial

theorem good_failIfT [ErrSet E] {c : Bool} {tag : Str} : M.Good E (M.failIf c tag) fun _ => True :=
  good_weaken good_failIf fun _ _ => trivial

theorem good_failIfNoLineT {c : Bool} {tag : Str} : M.Good ParseErr' (M.failIfNoLine c tag) fun _ => True :=
  good_weaken good_failIfNoLine fun _ _ => trivial

theorem good_parseKnownT [ErrSet E] {op : OptParser} {args : List Str} : M.Good E (M.parseKnown op args) fun _ => True :=
  good_weaken good_parseKnown fun _ _ => trivial

theorem good_parseArgsT [ErrSet E] {op : OptParser} {args : List Str} : M.Good E (M.parseArgs op args) fun _ => True :=
  good_weaken good_parseArgs fun _ _ => trivial

theorem good_whenT {c : Bool} {m : M Unit} (hm : c = true → M.Good E m fun _ => True) : M.Good E (M.when c m) fun _ => True :=
  good_when hm fun _ => trivial

theorem good_liftT {x : Except Exc α} (hx : ∃ a, x = .ok a) : M.Good E (M.lift x) fun _ => True := good_lift hx fun _ _ => trivial

theorem good_assertT {c : Bool} (h : c = true) : M.Good E (M.assert c) fun _ => True := good_weaken (good_assert h) fun _ _ => trivial

/-! ## Indexing that cannot fail -/

theorem Val.OneStr.len {v : Val} (h : v.OneStr) : v.len = 1 := by
  unfold Val.OneStr at h
  split at h
  · rfl
  · exact h.elim

theorem Val.OneStr.index {v : Val} (h : v.OneStr) : ∃ a, v.index 0 = .ok a := by
  unfold Val.OneStr at h
  split at h
  · exact ⟨_, rfl⟩
  · exact h.elim

theorem index_list {l : List Str} {i : Nat} (h : i < l.length) : ∃ a, (Val.list l).index i = .ok a := by
  refine ⟨.str l[i], ?_⟩
  simp [Val.index, h]

theorem Val.IsList.index {v : Val} (h : v.IsList) {i : Nat} (hl : i < v.len) : ∃ a, v.index i = .ok a := by
  unfold Val.IsList at h
  split at h
  · exact index_list hl
  · exact h.elim

theorem Val.IsList.pos {v : Val} (h : v.IsList) (ht : v.truthy = true) : 0 < v.len := by
  unfold Val.IsList at h
  split at h
  · rename_i l
    cases l with
    | nil => cases ht
    | cons a l => exact Nat.succ_pos _
  · exact h.elim

theorem Val.StrOrNone.split_ok {v : Val} (h : v.isStr = true) (c : Char) : (v.split c).IsList ∧ 0 < (v.split c).len := by
  cases v with
  | str s =>
    refine ⟨trivial, ?_⟩
    show 0 < (splitOn c s).length
    exact List.length_pos_of_ne_nil (splitOn_ne_nil c s)
  | _ => cases h

theorem Val.IsList.last {v : Val} (h : v.IsList) (hl : 0 < v.len) : ∃ a, v.last = .ok a := by
  unfold Val.IsList at h
  split at h
  · rename_i l
    simp only [Val.last]
    cases hg : l.getLast? with
    | none => rw [List.getLast?_eq_none_iff.1 hg] at hl; cases hl
    | some s => exact ⟨_, rfl⟩
  · exact h.elim

variable {op : OptParser} {d : Str} {args : List Str} {r : Ns × List Str}

theorem OptParser.OneFirst.get (hp : op.OneFirst d) (h : ∃ l : Option Int, op.parseKnown l args = .ok r) : (r.1.getD d).OneStr :=
  h.elim fun _ h => hp.shape h

theorem OptParser.OnePos.get (hp : op.OnePos d) (hd : c!"--" ∉ args) (h : ∃ l : Option Int, op.parseKnown l args = .ok r) : (r.1.getD d).OneStr :=
  h.elim fun _ h => hp.shape hd h

theorem OptParser.StarPos.get (hp : op.StarPos d) (h : ∃ l : Option Int, op.parseKnown l args = .ok r) : (r.1.getD d).IsList :=
  h.elim fun _ h => hp.shape h

theorem parseArgs_known {l : Option Int} {ns : Ns} (h : op.parseArgs l args = .ok ns) : op.parseKnown l args = .ok (ns, []) := by
  unfold OptParser.parseArgs at h
  split at h
  · cases h
  · rename_i ns' ex he
    split at h
    · cases h
    · rename_i hx
      cases h
      rw [he, Classical.not_not.1 hx]

theorem OptParser.StarPos.getArgs {ns : Ns} (hp : op.StarPos d) (h : ∃ l : Option Int, op.parseArgs l args = .ok ns) : (ns.getD d).IsList :=
  h.elim fun _ h => hp.shape (parseArgs_known h)

theorem OptParser.StrDest.getArgs {ns : Ns} (hp : op.StrDest d) (h : ∃ l : Option Int, op.parseArgs l args = .ok ns) : (ns.getD d).StrOrNone :=
  h.elim fun _ h => hp.shape (parseArgs_known h)

theorem length_of_not_ne {n m : Nat} (h : decide (n ≠ m) = false) : n = m := by simpa using h

theorem pos_of_not_isEmpty {l : List Str} (h : (!(!l.isEmpty)) = false) : 0 < l.length := by
  cases l with
  | nil => cases h
  | cons _ _ => exact Nat.succ_pos _

theorem index_len {l : List Str} {n i : Nat} (h : decide (l.length ≠ n) = false) (hi : i < n) : ∃ a, (Val.list l).index i = .ok a :=
  index_list (by rw [length_of_not_ne h]; exact hi)

theorem Val.IsList.index_len {v : Val} (hv : v.IsList) {n i : Nat} (h : decide (v.len ≠ n) = false) (hi : i < n) : ∃ a, v.index i = .ok a :=
  hv.index (by rw [length_of_not_ne h]; exact hi)

theorem Val.IsList.index_len' {v : Val} (hv : v.IsList) {n i : Nat} (h : decide (v.len = n) = true) (hi : i < n) : ∃ a, v.index i = .ok a :=
  hv.index (by rw [of_decide_eq_true h]; exact hi)

theorem truthy_of_not {b : Bool} (h : ¬(!b) = true) : b = true := by cases b <;> simp_all

theorem index_of_truthy {v : Val} (h : v.IsList) (ht : (!v.truthy) = false) : ∃ a, v.index 0 = .ok a :=
  h.index (h.pos (by simpa using ht))

theorem Ns.get_setToObj (ns o : Ns) (k : Str) : (setToObj ns o).getD k = o.getD k ∨ ∃ v ∈ ns, v.1 = k ∧ v.2 ≠ .none ∧ (setToObj ns o).getD k = v.2 := by
  unfold setToObj
  induction ns generalizing o with
  | nil => exact .inl rfl
  | cons a t ih =>
    rw [List.foldl_cons]
    rcases ih (if a.2 ≠ .none then o.set a.1 a.2 else o) with h | ⟨v, hv, h1, h2, h3⟩
    · rw [h]
      split
      · rename_i hne
        rw [Ns.getD_set]
        split
        · exact .inr ⟨a, by simp, by assumption, hne, rfl⟩
        · exact .inl rfl
      · exact .inl rfl
    · exact .inr ⟨v, by simp [hv], h1, h2, h3⟩

/-- Close a goal that an index exists, or that an assertion holds. -/
macro "good_fact" : tactic => `(tactic| first
  | exact (OptParser.OneFirst.get (by assumption) (by assumption)).index
  | exact decide_eq_true (OptParser.OneFirst.get (by assumption) (by assumption)).len
  | exact (OptParser.OnePos.get (by assumption) (by assumption) (by assumption)).index
  | exact index_len (by assumption) (by decide)
  | exact index_list (pos_of_not_isEmpty (by assumption))
  | exact (OptParser.StarPos.get (by assumption) (by assumption)).index_len (by assumption) (by decide)
  | exact (OptParser.StarPos.get (by assumption) (by assumption)).index (OptParser.StarPos.get (by assumption) (by assumption) |>.pos (by assumption))
  | exact (OptParser.StarPos.get (by assumption) (by assumption)).index (OptParser.StarPos.get (by assumption) (by assumption) |>.pos (truthy_of_not (by assumption)))
  | exact (OptParser.StarPos.getArgs (by assumption) (by assumption)).index_len' (by assumption) (by decide))

/-- One step of a proof that a `parse` method is good. -/
macro "good_step" : tactic => `(tactic| first
  | assumption
  | with_reducible apply good_pureT
  | with_reducible apply good_bind
  | with_reducible apply good_failIf
  | with_reducible apply good_failIfT
  | with_reducible apply good_whenT
  | with_reducible apply good_self | with_reducible apply good_set | with_reducible apply good_lineno | with_reducible apply good_dataList
  | with_reducible apply good_warn | with_reducible apply good_setToSelf | with_reducible apply good_err
  | with_reducible apply good_parseKnown | with_reducible apply good_parseArgs
  | with_reducible apply good_parseKnownT | with_reducible apply good_parseArgsT
  | with_reducible apply good_hasCmd | with_reducible apply good_usedCmd | (with_reducible apply good_seenCmd; decide)
  | with_reducible apply good_failIfM
  | with_reducible apply good_cond
  | with_reducible apply good_currentCmd | with_reducible apply good_currentLine | with_reducible apply good_del
  | (with_reducible apply good_liftT) | (with_reducible apply good_assertT)
  | with_reducible apply good_failIfNoLine | with_reducible apply good_failIfNoLineT
  | (intro _)
  | extract_lets
  | split)

/-- The juggling of `volgroup` keeps the list of names a list. -/
theorem vg_name (ns : Ns) (p q r s : Bool) (a b : Val) (l : List Str)
    (h : (ns.getD c!"name").IsList) :
    ((if s then (if p then if q then ns.set c!"partitions" a else if r then (ns.set c!"partitions" b).set c!"name" (Val.list l) else ns else ns).set c!"preexist" (Val.bool true) else
      (if p then if q then ns.set c!"partitions" a else if r then (ns.set c!"partitions" b).set c!"name" (Val.list l) else ns else ns)).getD c!"name").IsList := by
  cases p <;> cases q <;> cases r <;> cases s <;> simp only [if_true, if_false, Bool.false_eq_true, Ns.getD_set] <;> first | exact h | exact trivial

theorem getD_setToObj {ns o : Ns} (hk : ns.keys.Nodup) {d s : Str} (hs : ns.get d = some (.str s)) : (setToObj ns o).getD d = .str s := by
  unfold Ns.getD
  rw [C16_set_to_obj ns o hk, hs]
  rfl

/-- The device of `raid` is a string. -/
theorem raid_device {p : OptParser} (hp : p.ReqStr c!"device") {args : List Str} {r : Ns × List Str}
    (h : ∃ l : Option Int, p.parseKnown l args = .ok r) (c1 c2 : Bool) (v x : Val) (o : Ns) :
    ∃ s, ((setToObj (if c2 then (if c1 then r.1.set c!"partitions" v else r.1).set c!"preexist" (Val.bool true)
      else (if c1 then r.1.set c!"partitions" v else r.1)) o).set c!"lineno" x).getD c!"device" = .str s := by
  obtain ⟨l, h⟩ := h
  obtain ⟨s, hs⟩ := hp.shape h
  have hk := C16_known_keys _ _ _ _ _ h
  refine ⟨s, ?_⟩
  rw [Ns.getD_set, if_neg (by decide)]
  cases c1 <;> cases c2 <;> simp only [if_true, if_false, Bool.false_eq_true]
  · exact getD_setToObj hk hs
  · exact getD_setToObj (Ns.nodup_set hk _ _) (by rw [Ns.get_set, if_neg (by decide)]; exact hs)
  · exact getD_setToObj (Ns.nodup_set hk _ _) (by rw [Ns.get_set, if_neg (by decide)]; exact hs)
  · exact getD_setToObj (Ns.nodup_set (Ns.nodup_set hk _ _) _ _) (by rw [Ns.get_set, if_neg (by decide), Ns.get_set, if_neg (by decide)]; exact hs)

/-- The mount point of `mount` can only be missing when there is a `--`. -/
theorem mount_index {p : OptParser} {d : Str} (hp : p.OnePos d) {args : List Str} {r : Ns × List Str}
    (h : ∃ l : Option Int, p.parseKnown l args = .ok r) (hE : c!"--" ∈ args → ∀ n, E n .index) (n : Nat) (e : Exc)
    (he : (r.1.getD d).index 0 = .error e) : E n e := by
  obtain ⟨l, h⟩ := h
  by_cases hd : c!"--" ∈ args
  · have : (r.1.getD d).IsList := hp.isList h
    unfold Val.IsList at this
    split at this
    · rename_i l hl
      rw [hl] at he
      simp only [Val.index] at he
      split at he <;> cases he
      exact hE hd n
    · exact this.elim
  · obtain ⟨a, ha⟩ := (hp.shape hd h).index
    rw [ha] at he; cases he

end Ks
