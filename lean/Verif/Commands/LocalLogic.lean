import Verif.Commands.Base
/-!
# What `parse` methods look at

`M.Local S m`: of the rest of the handler, `m` looks only at whether the commands of the attributes
`S` were seen.
-/
namespace Ks

def M.Local {α : Type} (S : List Str) (m : M α) : Prop := ∀ h h' : Str → Option Bool, (∀ a ∈ S, h a = h' a) → ∀ i, m h i = m h' i

variable {α β : Type} {S : List Str}

theorem M.Local.mono {S' : List Str} {m : M α} (hm : M.Local S m) (hs : ∀ a ∈ S, a ∈ S') : M.Local S' m :=
  fun h h' hh i => hm h h' (fun a ha => hh a (hs a ha)) i

theorem local_const {m : M α} (hm : ∀ h h' i, m h i = m h' i) : M.Local S m := fun h h' _ i => hm h h' i

theorem local_bind {m : M α} {f : α → M β} (hm : M.Local S m) (hf : ∀ a, M.Local S (f a)) : M.Local S (m >>= f) := by
  intro h h' hh i
  simp only [bind]
  rw [hm h h' hh i]
  split
  · rfl
  · exact hf _ h h' hh _

theorem local_pure {x : α} : M.Local S (pure x) := fun _ _ _ _ => rfl
theorem local_self : M.Local S M.self := fun _ _ _ _ => rfl
theorem local_currentCmd : M.Local S M.currentCmd := fun _ _ _ _ => rfl
theorem local_currentLine : M.Local S M.currentLine := fun _ _ _ _ => rfl
theorem local_lineno : M.Local S M.lineno := fun _ _ _ _ => rfl
theorem local_dataList : M.Local S M.dataList := fun _ _ _ _ => rfl
theorem local_throw {e : Exc} : M.Local S (M.throw e : M α) := fun _ _ _ _ => rfl
theorem local_err {msg : Str} : M.Local S (M.err msg : M α) := fun _ _ _ _ => rfl
theorem local_warn {w : Warn} : M.Local S (M.warn w) := fun _ _ _ _ => rfl
theorem local_set {k : Str} {v : Val} : M.Local S (M.set k v) := fun _ _ _ _ => rfl
theorem local_setData {d : List Ns} : M.Local S (M.setData d) := fun _ _ _ _ => rfl
theorem local_setToSelf {ns : Ns} : M.Local S (M.setToSelf ns) := fun _ _ _ _ => rfl
theorem local_del {k : Str} : M.Local S (M.del k) := fun _ _ _ _ => rfl
theorem local_lift {x : Except Exc α} : M.Local S (M.lift x) := fun _ _ _ _ => rfl
theorem local_parseKnown {op : OptParser} {args : List Str} : M.Local S (M.parseKnown op args) := fun _ _ _ _ => rfl
theorem local_parseArgs {op : OptParser} {args : List Str} : M.Local S (M.parseArgs op args) := fun _ _ _ _ => rfl

theorem local_failIf {c : Bool} {msg : Str} : M.Local S (M.failIf c msg) := by
  unfold M.failIf; cases c <;> exact fun _ _ _ _ => rfl

theorem local_failIfNoLine {c : Bool} {msg : Str} : M.Local S (M.failIfNoLine c msg) := by
  unfold M.failIfNoLine; cases c <;> exact fun _ _ _ _ => rfl

theorem local_assert {c : Bool} : M.Local S (M.assert c) := by
  unfold M.assert; cases c <;> exact fun _ _ _ _ => rfl

theorem local_when {c : Bool} {m : M Unit} (hm : M.Local S m) : M.Local S (M.when c m) := by
  unfold M.when; cases c
  · exact fun _ _ _ _ => rfl
  · exact hm

theorem local_seenCmd {a : Str} (ha : a ∈ S) : M.Local S (M.seenCmd a) := by
  intro h h' hh i
  unfold M.seenCmd
  rw [hh a ha]

theorem local_usedCmd {a : Str} (ha : a ∈ S) : M.Local S (M.usedCmd a) := by
  intro h h' hh i
  unfold M.usedCmd
  rw [hh a ha]

theorem local_failIfM {c : M Bool} {msg : Str} (hc : M.Local S c) : M.Local S (M.failIfM c msg) := by
  unfold M.failIfM
  exact local_bind hc fun _ => local_failIf

theorem local_cond {c : M Bool} {m n : M α} (hc : M.Local S c) (hm : M.Local S m) (hn : M.Local S n) : M.Local S (M.cond c m n) := by
  unfold M.cond
  exact local_bind hc fun b => by cases b <;> assumption

macro "local_step" : tactic => `(tactic| first
  | with_reducible apply local_pure
  | with_reducible apply local_bind
  | with_reducible apply local_failIf
  | with_reducible apply local_when
  | with_reducible apply local_self | with_reducible apply local_set | with_reducible apply local_lineno | with_reducible apply local_dataList
  | with_reducible apply local_warn | with_reducible apply local_setToSelf | with_reducible apply local_err
  | with_reducible apply local_parseKnown | with_reducible apply local_parseArgs
  | (with_reducible apply local_usedCmd; decide) | (with_reducible apply local_seenCmd; decide)
  | with_reducible apply local_failIfM
  | with_reducible apply local_cond
  | with_reducible apply local_currentCmd | with_reducible apply local_currentLine | with_reducible apply local_del
  | with_reducible apply local_lift | with_reducible apply local_assert | with_reducible apply local_setData
  | with_reducible apply local_failIfNoLine | with_reducible apply local_throw
  | (intro _)
  | extract_lets
  | split)

attribute [irreducible] M.Local

theorem M.Local.run {m : M α} (hm : M.Local S m) {h h' : Str → Option Bool} (hh : ∀ a ∈ S, h a = h' a) (i : Inst CState) : m h i = m h' i := by
  unfold M.Local at hm
  exact hm h h' hh i

/-- `parse` of a class looks only at whether the commands of the attributes `S` were seen. -/
def Command.Local (c : Command) (S : List Str) : Prop :=
  ∀ h h' : Str → Option Bool, (∀ a ∈ S, h a = h' a) → ∀ args i, c.parse h args i = c.parse h' args i

variable {name : Str} {prio : Option Int} {init : Ns} {str : Ns → Str} {dc : DataCls}

theorem plain_local {parse : List Str → M Unit} (h : ∀ args, M.Local S (parse args)) : (plainCmd name prio init parse str).Local S := by
  intro s s' hs args i
  show (match parse args s i with | (i, .error e) => (i, .error e) | (i, .ok _) => (i, .ok none) : Inst CState × Except Exc (Option Ns)) =
    (match parse args s' i with | (i, .error e) => (i, .error e) | (i, .ok _) => (i, .ok none) : Inst CState × Except Exc (Option Ns))
  rw [(h args).run hs i]

theorem list_local {parse : List Str → M Ns} {str : List Str → Str} (h : ∀ args, M.Local S (parse args)) :
    (listCmd name prio init dc parse str).Local S := by
  intro s s' hs args i
  show (match parse args s i with | (i, .error e) => (i, .error e) | (i, .ok d) => (i, .ok (some d)) : Inst CState × Except Exc (Option Ns)) =
    (match parse args s' i with | (i, .error e) => (i, .error e) | (i, .ok d) => (i, .ok (some d)) : Inst CState × Except Exc (Option Ns))
  rw [(h args).run hs i]

theorem deprecated_local : (deprecatedCmd name init).Local S := plain_local fun _ => local_bind local_currentCmd fun _ => local_warn

theorem removed_local : (removedCmd name init).Local S := plain_local fun _ => local_bind local_currentCmd fun _ => local_err

/-- The attributes of the commands that a class looks at, by its own attribute. -/
def looksAt (a : Str) : List Str :=
  if a ∈ [c!"partition", c!"raid", c!"volgroup", c!"logvol", c!"reqpart"] then [c!"autopart", c!"mount"]
  else if a = c!"autopart" then [c!"partition", c!"raid", c!"volgroup", c!"logvol", c!"reqpart", c!"mount"]
  else if a = c!"mount" then [c!"autopart", c!"partition", c!"raid", c!"volgroup", c!"logvol", c!"reqpart"]
  else []

end Ks
