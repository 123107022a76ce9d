import Verif.Commands.Base
/-!
# What `parse` methods return

`M.Post n m Q`: on an object whose line number is `n`, `m` leaves the line number alone and a value it
returns satisfies `Q`.
-/
namespace Ks

def M.Post {α : Type} (n : Nat) (m : M α) (Q : α → Prop) : Prop :=
  ∀ h i, i.lineno = n → (m h i).1.lineno = n ∧ ∀ a, (m h i).2 = .ok a → Q a

variable {α β : Type} {n : Nat}

theorem post_pure {a : α} {Q : α → Prop} (h : Q a) : M.Post n (pure a) Q :=
  fun _ _ hi => ⟨hi, fun _ e => by cases e; exact h⟩

theorem post_bind {m : M α} {f : α → M β} {P : α → Prop} {Q : β → Prop} (hm : M.Post n m P) (hf : ∀ a, P a → M.Post n (f a) Q) :
    M.Post n (m >>= f) Q := by
  intro h i hi
  obtain ⟨h1, h2⟩ := hm h i hi
  simp only [bind]
  match hr : m h i with
  | (j, .error e) =>
    rw [hr] at h1
    exact ⟨h1, fun _ e => (nomatch e)⟩
  | (j, .ok a) =>
    rw [hr] at h1 h2
    exact hf a (h2 a rfl) h j h1

theorem post_weaken {m : M α} {P Q : α → Prop} (hm : M.Post n m P) (h : ∀ a, P a → Q a) : M.Post n m Q :=
  fun s i hi => ⟨(hm s i hi).1, fun a ha => h a ((hm s i hi).2 a ha)⟩

theorem post_and {m : M α} {P Q : α → Prop} (hm : M.Post n m P) (hm' : M.Post n m Q) : M.Post n m fun a => P a ∧ Q a :=
  fun s i hi => ⟨(hm s i hi).1, fun a ha => ⟨(hm s i hi).2 a ha, (hm' s i hi).2 a ha⟩⟩

theorem post_self : M.Post n M.self fun _ => True := fun _ _ hi => ⟨hi, fun _ _ => trivial⟩
theorem post_currentCmd : M.Post n M.currentCmd fun _ => True := fun _ _ hi => ⟨hi, fun _ _ => trivial⟩
theorem post_currentLine : M.Post n M.currentLine fun _ => True := fun _ _ hi => ⟨hi, fun _ _ => trivial⟩
theorem post_lineno : M.Post n M.lineno fun a => a = n := fun _ _ hi => ⟨hi, fun _ e => by cases e; exact hi⟩
theorem post_dataList : M.Post n M.dataList fun _ => True := fun _ _ hi => ⟨hi, fun _ _ => trivial⟩
theorem post_usedCmd {a : Str} : M.Post n (M.usedCmd a) fun _ => True := fun _ _ hi => ⟨hi, fun _ _ => trivial⟩
theorem post_seenCmd {a : Str} : M.Post n (M.seenCmd a) fun _ => True := by
  intro h i hi
  unfold M.seenCmd
  cases h a <;> exact ⟨hi, fun _ _ => trivial⟩
theorem post_throw {e : Exc} {Q : α → Prop} : M.Post n (M.throw e) Q := fun _ _ hi => ⟨hi, fun _ e => (nomatch e)⟩
theorem post_err {tag : Str} {Q : α → Prop} : M.Post n (M.err tag) Q := fun _ _ hi => ⟨hi, fun _ e => (nomatch e)⟩
theorem post_warn {w : Warn} : M.Post n (M.warn w) fun _ => True := fun _ _ hi => ⟨hi, fun _ _ => trivial⟩
theorem post_set {k : Str} {v : Val} : M.Post n (M.set k v) fun _ => True := fun _ _ hi => ⟨hi, fun _ _ => trivial⟩
theorem post_setData {d : List Ns} : M.Post n (M.setData d) fun _ => True := fun _ _ hi => ⟨hi, fun _ _ => trivial⟩
theorem post_del {k : Str} : M.Post n (M.del k) fun _ => True := fun _ _ hi => ⟨hi, fun _ _ => trivial⟩
theorem post_setToSelf {ns : Ns} : M.Post n (M.setToSelf ns) fun _ => True := fun _ _ hi => ⟨hi, fun _ _ => trivial⟩
theorem post_lift {x : Except Exc α} : M.Post n (M.lift x) fun a => x = .ok a := fun _ _ hi => ⟨hi, fun _ e => e⟩
theorem post_parseKnown {op : OptParser} {args : List Str} : M.Post n (M.parseKnown op args) fun r => op.parseKnown (some (n : Int)) args = .ok r :=
  fun _ _ hi => ⟨hi, fun _ e => by rw [← hi]; exact e⟩
theorem post_parseArgs {op : OptParser} {args : List Str} : M.Post n (M.parseArgs op args) fun r => op.parseArgs (some (n : Int)) args = .ok r :=
  fun _ _ hi => ⟨hi, fun _ e => by rw [← hi]; exact e⟩

theorem post_failIf {c : Bool} {msg : Str} : M.Post n (M.failIf c msg) fun _ => c = false := by
  unfold M.failIf
  cases c
  · exact post_pure rfl
  · exact post_err

theorem post_failIfNoLine {c : Bool} {msg : Str} : M.Post n (M.failIfNoLine c msg) fun _ => c = false := by
  unfold M.failIfNoLine
  cases c
  · exact post_pure rfl
  · exact post_throw

theorem post_assert {c : Bool} : M.Post n (M.assert c) fun _ => c = true := by
  unfold M.assert
  cases c
  · exact post_throw
  · exact post_pure rfl

theorem post_when {c : Bool} {m : M Unit} {P : Unit → Prop} (hm : M.Post n m P) : M.Post n (M.when c m) fun _ => c = true → P () := by
  unfold M.when
  cases c
  · exact post_pure fun h => by cases h
  · exact post_weaken hm fun _ h _ => h

theorem post_failIfM {c : M Bool} {msg : Str} {P : Bool → Prop} (hc : M.Post n c P) : M.Post n (M.failIfM c msg) fun _ => P false :=
  post_bind hc fun b hb => post_weaken post_failIf fun _ h => by rw [h] at hb; exact hb

theorem post_cond {c : M Bool} {a b : M α} {P : Bool → Prop} {Q : α → Prop} (hc : M.Post n c P) (ha : M.Post n a Q) (hb : M.Post n b Q) :
    M.Post n (M.cond c a b) Q :=
  post_bind hc fun x _ => by cases x <;> assumption

theorem post_true {m : M α} (hm : ∀ h i, (m h i).1.lineno = i.lineno) : M.Post n m fun _ => True :=
  fun h i hi => ⟨(hm h i).trans hi, fun _ _ => trivial⟩

attribute [irreducible] M.Post

theorem M.Post.run {m : M α} {Q : α → Prop} (hm : M.Post n m Q) {h : Str → Option Bool} {i : Inst CState} (hi : i.lineno = n) {a : α}
    (ha : (m h i).2 = .ok a) : Q a := by
  unfold M.Post at hm
  exact (hm h i hi).2 a ha

/-- One step through a program, up to the value it returns. -/
macro "post_step" : tactic => `(tactic| first
  | with_reducible apply post_bind
  | with_reducible apply post_failIf
  | with_reducible apply post_failIfNoLine
  | with_reducible apply post_when
  | with_reducible apply post_self | with_reducible apply post_lineno | with_reducible apply post_dataList
  | with_reducible apply post_warn | with_reducible apply post_err
  | with_reducible apply post_parseKnown | with_reducible apply post_parseArgs
  | with_reducible apply post_usedCmd | with_reducible apply post_seenCmd
  | with_reducible apply post_failIfM
  | with_reducible apply post_cond
  | with_reducible apply post_currentCmd | with_reducible apply post_currentLine | with_reducible apply post_del
  | with_reducible apply post_set | with_reducible apply post_setToSelf
  | with_reducible apply post_lift | with_reducible apply post_assert | with_reducible apply post_setData
  | with_reducible apply post_throw)

end Ks
