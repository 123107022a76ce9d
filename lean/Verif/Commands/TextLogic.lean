import Verif.Commands.LineLogic
import Verif.Commands.TextSpec
import Verif.Commands.Session
/-!
# What a command writes after its first line: how it is checked
-/
namespace Ks

/-- The text of the command after `parse`. -/
def written (c : Command) (p : Inst CState × Except Exc (Option Ns)) : Option Str :=
  match p.2 with
  | .ok _ => some (c.str (c.stored p))
  | .error _ => none

/-- The first line with these arguments makes the command write the text. -/
def Command.FirstText (c : Command) (n : Str) (r : TextSpec) : Prop :=
  ∀ (b b' : Option Bool), Off b → Off b' → ∀ (x : Str), x ≠ [] → ∀ (line : Str) (l : Nat),
    written c (c.parse (quiet b b') (r.args x) (firstInst c n line l)) = some (r.text x)

/-- The default row. -/
def noText : TextSpec := ⟨[], fun _ => [], fun _ => []⟩

/-- The class writes what the specification says for the version. -/
def Command.Writes (c : Command) (e : CommandTexts) (v : Nat) : Prop := ∀ r ∈ e.texts, r.versions.has v = true → c.FirstText e.cmd r

theorem writes_of {c : Command} {e : CommandTexts} {vs : List Nat} (is : List Nat) (hl : ∀ i ∈ is, c.FirstText e.cmd (e.texts.getD i noText))
    (hc : vs.all (fun v => allChecked (·.versions) e.texts is v) = true) : ∀ v, vs.contains v = true → c.Writes e v := by
  intro v hv
  exact of_allChecked (List.all_eq_true.1 hc v (by simpa using hv)) noText hl

theorem writes_none {c : Command} {e : CommandTexts} {v : Nat} (h : e.texts.all (fun r => !r.versions.has v) = true) : c.Writes e v := by
  intro r hr hv
  have := List.all_eq_true.1 h r hr
  rw [hv] at this; cases this

open Cmd in
/-- The command maps give classes to the command that write what the specification says. -/
def CommandTexts.Written (e : CommandTexts) : Prop := ∀ y ∈ commandMaps, ∀ c, y.2.lookup e.cmd = some c → c.Writes e y.1

end Ks

open Lean Elab Tactic Meta in
/-- Prove `o = some (B ++ x ++ C)` for closed texts `B` and `C`. The kernel computes `o` to `B ++ ((x ++ C₁) ++ …) ++ Cₙ`, and the
parts of `C` are found from what is left when the computation meets `x`. -/
elab "text_rfl" : tactic => withMainContext do
  let g ← getMainGoal
  let t ← instantiateMVars (← g.getType)
  let some (_, l, r) := t.eq? | throwError "not an equation"
  let env ← getEnv
  let lctx ← getLCtx
  let whnfK (e : Expr) : MetaM Expr := match Kernel.whnf env lctx e with
    | .ok e => return e
    | .error _ => throwError "the kernel cannot compute the value"
  let peel (e : Expr) : MetaM (Array Expr × Expr) := do
    let mut cur ← whnfK e
    let mut cs := #[]
    while cur.isAppOfArity ``List.cons 3 do
      cs := cs.push cur.appFn!.appArg!
      cur ← whnfK cur.appArg!
    return (cs, cur)
  let some' ← whnfK l
  let (_, #[_, l']) := some'.getAppFnArgs | throwError "no text: {some'}"
  let (_, #[_, r']) := r.getAppFnArgs | throwError "no text: {r}"
  let (``HAppend.hAppend, #[_, _, _, _, bx, c]) := r'.getAppFnArgs | throwError "no text: {r'}"
  let (``HAppend.hAppend, #[_, _, _, _, b, x]) := bx.getAppFnArgs | throwError "no text: {bx}"
  let mut cur := (← peel l').2
  let mut lens := #[]
  while !cur.isFVar do
    let .proj _ _ s := cur.getAppFn | throwError "the value is inspected: {cur}"
    unless cur.getAppNumArgs = 1 && (s.find? (·.isConstOf ``List.append._f)).isSome do throwError "the value is inspected: {cur}"
    let (cs, e) ← peel cur.appArg!
    unless e.isAppOf ``List.nil do throwError "the value is inspected: {e}"
    lens := lens.push cs.size
    cur ← whnfK (if s.getAppFn.isConstOf ``List.rec then s.appArg! else s.appFn!.appArg!)
  let (cs, _) ← peel c
  let α ← inferType c
  let mut mid := x
  let mut at_ := 0
  for n in lens.reverse do
    mid ← mkAppM ``HAppend.hAppend #[mid, ← mkListLit (mkConst ``Char) (cs.extract at_ (at_ + n)).toList]
    at_ := at_ + n
  mid ← mkAppM ``HAppend.hAppend #[b, mid]
  let m ← mkAppOptM ``Option.some #[some α, some mid]
  let h1 ← mkFreshExprMVar (← mkEq l m)
  let h2 ← mkFreshExprMVar (← mkEq m r)
  let .sort u ← whnf (← inferType (← inferType l)) | throwError "no sort"
  h1.mvarId!.assign (mkApp2 (mkConst ``Eq.refl [u]) (← inferType l) l)
  g.assign (← mkEqTrans h1 h2)
  replaceMainGoal [h2.mvarId!]
  evalTactic (← `(tactic| simp only [List.append_assoc, List.cons_append, List.nil_append, List.append_nil]))
