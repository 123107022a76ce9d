import Verif.Commands.PlainNormalSims
import Verif.Commands.PlainNormalSpec
/-!
# The boot loader with a password

`parse` turns `--md5pass` into the attributes `password` and `isCrypted`. A boot loader whose password is not
encrypted was not given this option, and the text has the password as it is.
-/
namespace Ks

variable {op : OptParser} {init : Ns} {args : List Str} {n : Nat}

/-- The text without the piece for `md5pass`, an attribute that `parse` never sets. -/
def unMd5 (o : Out) : Out := o.filter fun x => !x.1.conj.contains (.tru c!"md5pass")

theorem unMd5_render {o : Out} {d : Ns} (h : (Cond.not (.tru c!"md5pass")).eval d = true) : o.render d = (unMd5 o).render d := by
  unfold Out.render unMd5
  induction o with
  | nil => rfl
  | cons x o ih =>
    rw [List.filter_cons]
    split
    · simp only [List.map_cons, List.flatten_cons, ih]
    · rename_i hx
      rw [List.map_cons, List.flatten_cons, ih]
      suffices e : pieceText d x = [] by rw [e]; rfl
      unfold pieceText
      rw [if_neg]
      intro hc
      have := (eval_conj d x.1).1 hc (.tru c!"md5pass") (by simpa using hx)
      simp only [Cond.eval, Bool.not_eq_true'] at h this
      rw [h] at this
      cases this

theorem self_unlocked {ns : Ns} {skip : List Str} (h : NsBy op skip n args ns) :
    M.Self n (Before init skip)
      (M.setToSelf (if (ns.getD c!"_md5pass").truthy then Ns.without ((ns.set c!"password" (ns.getD c!"_md5pass")).set c!"isCrypted" (Val.bool true)) [c!"_md5pass"] else ns))
      fun _ s => (s.getD c!"isCrypted").truthy = false → ParsedBy op init skip n args s := by
  unfold M.Self
  split
  · intro _ i hi _
    refine ⟨hi, fun _ _ hf => ?_⟩
    obtain ⟨ns0, ex, h1, h2, h3⟩ := h
    have e : (setToObj (Ns.without ((ns.set c!"password" (ns.getD c!"_md5pass")).set c!"isCrypted" (Val.bool true)) [c!"_md5pass"]) i.attrs.attrs).get c!"isCrypted" = some (.bool true) := by
      rw [C16_set_to_obj _ _ (without_nodup (Ns.nodup_set (Ns.nodup_set h2 _ _) _ _) _), get_without (by decide), Ns.get_set, if_pos rfl]
    have hf : ((setToObj (Ns.without ((ns.set c!"password" (ns.getD c!"_md5pass")).set c!"isCrypted" (Val.bool true)) [c!"_md5pass"]) i.attrs.attrs).getD c!"isCrypted").truthy = false := hf
    unfold Ns.getD at hf e
    rw [e] at hf
    cases hf
  · intro hh i hi hP
    have h0 := self_setTo (init := init) h
    unfold M.Self at h0
    obtain ⟨h1, h2⟩ := h0 hh i hi hP
    exact ⟨h1, fun a ha _ => h2 a ha⟩

theorem keep_unlocked {s : Sheet} {need fixed : List Str} {base d : Ns} (hb : (fixed.contains c!"isCrypted" && !(base.getD c!"isCrypted").truthy) = true)
    (hL : s.Lossless need fixed base d) : (d.getD c!"isCrypted").truthy = false := by
  simp only [Bool.and_eq_true, List.contains_iff_mem, Bool.not_eq_true'] at hb
  rw [← hb.2]
  unfold Ns.getD
  rw [hL.2.2.1 _ hb.1]

/-- Commands with options only, if `parse` does more when a password is encrypted. -/
theorem plain_locked {name : Str} {prio : Option Int} {parse : List Str → M Unit} {str : Ns → Str} (s : Sheet) {need fixed : List Str} {o : Out}
    (hparse : ∀ args n, M.Self n (Before init [c!"seen"]) (parse args) fun _ d => (d.getD c!"isCrypted").truthy = false → ParsedBy op init [c!"seen"] n args d)
    (hu : ∀ d, s.Lossless need fixed (setToObj op.defaults init) d → (d.getD c!"isCrypted").truthy = false)
    (hstr : ∀ d, s.Shown d → str d = o.render d)
    (hsim : ∀ args args', Follows op init [] noWords args args' → M.Sims (Fresh init) (parse args) (parse args') fun _ _ => Alike [])
    (hT : (s.skip.contains c!"seen" && !fixed.contains c!"seen") = true) (hc : s.check op init o = true)
    (hn : (normalCheck s need fixed [] [] op init [] o && optsOnly op && skipCheck s fixed op o) = true) :
    (plainCmd name prio init parse str).SelfNormal s need fixed (setToObj op.defaults init) := by
  simp only [Bool.and_eq_true, List.contains_iff_mem, Bool.not_eq_true', ← Bool.not_eq_true] at hn hT
  intro h args i x hi hx hp hL
  obtain ⟨hy, hr⟩ := plainCmd_parse hx
  refine plain_normal (T := [c!"seen"]) (by simp) hstr hc hn.1.1 (by simpa using hT.1) (fun k hk e => ?_) hi hx
    ?_ (hsim args) (skip_ok hn.2 _) (fun ns ex _ => takes_noWords (Sheet.check_wf hc) hn.1.2 ns ex) hp hL
  · rw [List.mem_singleton] at e
    exact hT.2 (e ▸ hk)
  · rw [hr] at hL ⊢
    refine (hparse args i.lineno).run rfl (by rw [show i.attrs.attrs = init from hi]; exact before_refl) hy ?_
    have := hu _ hL
    have e : ∀ j : Inst CState, (selfOf j).getD c!"isCrypted" = j.attrs.attrs.getD c!"isCrypted" := fun j => by
      unfold Ns.getD
      rw [selfOf_get (skip := [c!"seen"]) (by simp) (by decide)]
    rw [e] at this
    exact this

namespace Cmd

theorem F15_Bootloader.unlocked (k : Info) (init : Ns) (args : List Str) (n : Nat) :
    M.Self n (Before init [c!"seen"]) (F15_Bootloader.parse k args) fun _ d => (d.getD c!"isCrypted").truthy = false → ParsedBy k.op init [c!"seen"] n args d := by
  unfold F15_Bootloader.parse
  refine self_q quiet_parseArgs post_parseArgs fun b hb => ?_
  exact self_unlocked (nsBy_args hb)

theorem RHEL6_Bootloader.unlocked (k : Info) (init : Ns) (args : List Str) (n : Nat) :
    M.Self n (Before init [c!"seen"]) (RHEL6_Bootloader.parse k args) fun _ d => (d.getD c!"isCrypted").truthy = false → ParsedBy k.op init [c!"seen"] n args d := by
  unfold RHEL6_Bootloader.parse
  refine self_q quiet_parseArgs post_parseArgs fun b hb => ?_
  exact self_unlocked (nsBy_args hb)

theorem F17_Bootloader.unlocked (k : Info) (init : Ns) (args : List Str) (n : Nat) :
    M.Self n (Before init [c!"seen"]) (F17_Bootloader.parse k args) fun _ d => (d.getD c!"isCrypted").truthy = false → ParsedBy k.op init [c!"seen"] n args d := by
  unfold F17_Bootloader.parse
  refine self_call (F15_Bootloader.unlocked k init args n) fun _ => ?_
  refine self_q quiet_self post_self fun _ _ => ?_
  exact self_q_end quiet_failIf post_failIf

end Cmd

end Ks
