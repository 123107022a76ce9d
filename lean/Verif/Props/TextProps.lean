import Verif.Props.LineProps
import Verif.Commands.FirstTexts
/-!
# C66: what a command writes after its first line
-/
namespace Ks

open Cmd

/-- C66: in every state in which no line of a command, and none of a command that does not agree with it, has been
read, a line in the table is accepted, with every value that an option may have, and the command then writes the
text in the table. -/
theorem C66_text {v : Nat} (hv : Supported v) {h : Handler CState Ns} (s : Session v h) {e : CommandTexts} (he : e ∈ commandTexts)
    (hf : FirstOf h e.cmd) {r : TextSpec} (hr : r ∈ e.texts) (hrv : r.versions.has v = true) {x : Str} (hx : x ≠ []) (l : Nat) (line : Str) :
    (h.dispatch l (e.cmd :: r.args x) line).2 = none ∧ textOf (h.dispatch l (e.cmd :: r.args x) line).1 e.cmd = r.text x := by
  have inv := session_inv hv s
  obtain ⟨c, hc, ho⟩ := unread_object hv s hf.1
  have ho' := ho
  unfold objectOf at ho'
  split at ho'
  · rename_i r' hlk
    obtain ⟨b, b', hb, hb', hq⟩ := first_quiet hv s hf hlk ho'
    have hcls : (CmdClass.new c).cls = c := rfl
    have hd := dispatch_eq hlk ho' l (r.args x) line
    simp only at hd
    rw [hq, hcls] at hd
    have hw := commandTexts_written e he _ (supported_mem hv) c hc r hr hrv b b' hb hb' x hx line l
    change written c (c.parse (quiet b b') (r.args x) (c.new.inst.noted e.cmd line l)) = _ at hw
    generalize c.parse (quiet b b') (r.args x) (c.new.inst.noted e.cmd line l) = p at hd hw
    have hr' : r' < h.heap.length := (List.getElem?_eq_some_iff.1 ho').1
    obtain ⟨j, y⟩ := p
    cases y with
    | error e => cases hw
    | ok y =>
      rw [hd]
      refine ⟨rfl, ?_⟩
      simp only [textOf, objectOf, Handler.setInst, hlk, List.getElem?_set_self hr']
      exact Option.some.inj hw
  · cases ho'

/-- The hypotheses are met: a new handler of Fedora 34 has read no line, and the table has lines of `mount`. -/
example : Supported Version.F34 ∧ Session Version.F34 (newHandler Version.F34) ∧ FirstOf (newHandler Version.F34) c!"mount" ∧
    mountTexts ∈ commandTexts ∧ (mountTexts.texts.any fun r => r.versions.has Version.F34) = true := by
  refine ⟨by decide +kernel, .new, by decide +kernel, by unfold commandTexts; simp, by decide +kernel⟩

/-- The line `mount a /x --mountoptions=X`, for every `X`. -/
example (x : Str) (hx : x ≠ []) (l : Nat) (line : Str) :
    textOf ((newHandler Version.F34).dispatch l [c!"mount", c!"a", c!"/x", c!"--mountoptions=" ++ x] line).1 c!"mount" =
      c!"# Mount points configuration\nmount a /x --mountoptions=\"" ++ x ++ c!"\"\n\n" :=
  (C66_text (v := Version.F34) (by decide +kernel) .new (e := mountTexts) (by unfold commandTexts; simp) (by decide +kernel)
    (r := ⟨[(Version.F27, Version.F34)], fun x => [c!"a", c!"/x", c!"--mountoptions=" ++ x],
      fun x => c!"# Mount points configuration\nmount a /x --mountoptions=\"" ++ x ++ c!"\"\n\n"⟩)
    (by unfold mountTexts; simp) (by decide +kernel) hx l line).2

end Ks
