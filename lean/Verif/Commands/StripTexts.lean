import Verif.Commands.Stripped
import Verif.Commands.Maps
/-!
# The templates of the classes that strip the text they inherit
-/
namespace Ks
open Cmd

set_option linter.unusedSimpArgs false

/-! ## `lang` -/

/-- The text of `lang` before the newline. -/
def FC3_Lang.out : Out := [(.tru c!"lang", [.lit c!"# System language\nlang ", .fld c!"lang"])]
/-- The text of `lang` before the newline. -/
def F19_Lang.out : Out := FC3_Lang.out ++ Out.under (.and (.tru c!"lang") (.tru c!"addsupport")) [(.tt, [.lit c!" --addsupport=", .join c!"," c!"addsupport"])]

theorem FC3_Lang.lined : Lined [c!"lang", c!"addsupport"] [c!"lang"] FC3_Lang.strOut.render (.tru c!"lang") FC3_Lang.out := by
  refine Lined.base (by decide +kernel) fun d => ?_
  simp only [Out.render, pieceText, FC3_Lang.out, FC3_Lang.strOut, Frag.render, List.map_cons, List.map_nil, List.cons_append, List.nil_append]
  split <;> simp

theorem F19_Lang.lined : Lined [c!"lang", c!"addsupport"] [c!"lang"] F19_Lang.strText (.tru c!"lang") F19_Lang.out :=
  FC3_Lang.lined.step_rstrip _ _ (by decide +kernel) (by lined_eq F19_Lang.strText)

/-! ## `nfs` -/

/-- The text of `nfs` before the newline. -/
def FC3_NFS.out : Out := [(.tru c!"seen", [.lit c!"# Use NFS installation media\nnfs --server=", .fld c!"server", .lit c!" --dir=", .fld c!"dir"])]
/-- The text of `nfs` before the newline. -/
def FC6_NFS.out : Out := FC3_NFS.out ++ Out.under (.and (.tru c!"seen") (.tru c!"opts")) [(.tt, [.lit c!" --opts=\"", .fld c!"opts", .lit c!"\""])]

theorem FC3_NFS.lined : Lined [c!"dir"] [] FC3_NFS.strOut.render (.tru c!"seen") FC3_NFS.out := by
  refine Lined.base (by decide +kernel) fun d => ?_
  simp only [Out.render, pieceText, FC3_NFS.out, FC3_NFS.strOut, Frag.render, List.map_cons, List.map_nil, List.cons_append, List.nil_append]
  split <;> simp

theorem FC6_NFS.lined : Lined [c!"dir"] [] FC6_NFS.strText (.tru c!"seen") FC6_NFS.out :=
  FC3_NFS.lined.step_rstrip' _ _ (by decide +kernel) (by lined_eq FC6_NFS.strText)

/-! ## `url` -/

/-- The text of `url` before the newline. -/
def FC3_Url.out : Out := [(.tru c!"seen", [.lit c!"# Use network installation\nurl --url=\"", .fld c!"url", .lit c!"\""])]
/-- The text of `url` before the newline. -/
def F13_Url.out : Out := FC3_Url.out ++ Out.under (.and (.tru c!"seen") (.tru c!"proxy")) [(.tt, [.lit c!" --proxy=\"", .fld c!"proxy", .lit c!"\""])]
/-- The text of `url` before the newline. -/
def F14_Url.out : Out := F13_Url.out ++ Out.under (.and (.tru c!"seen") (.tru c!"noverifyssl")) [(.tt, [.lit c!" --noverifyssl"])]

theorem FC3_Url.lined : Lined [] [] FC3_Url.strOut.render (.tru c!"seen") FC3_Url.out := by
  refine Lined.base (by decide +kernel) fun d => ?_
  simp only [Out.render, pieceText, FC3_Url.out, FC3_Url.strOut, Frag.render, List.map_cons, List.map_nil, List.cons_append, List.nil_append]
  split <;> simp

theorem F13_Url.lined : Lined [] [] F13_Url.strText (.tru c!"seen") F13_Url.out :=
  FC3_Url.lined.step_strip _ _ (by decide +kernel) (by lined_eq F13_Url.strText)

theorem F14_Url.lined : Lined [] [] F14_Url.strText (.tru c!"seen") F14_Url.out :=
  F13_Url.lined.step_strip _ _ (by decide +kernel) (by lined_eq F14_Url.strText)

/-- The text of `url` before the newline. -/
def F27_Url.out : Out := F27_Url.strOut.dropLast
/-- The text of `url` from Fedora 30. -/
def F30_Url.out : Out := F27_Url.out ++ [
    (.and (.tru c!"seen") (.tru c!"sslcacert"), [.lit c!" --sslcacert=\"", .fld c!"sslcacert", .lit c!"\""]),
    (.and (.tru c!"seen") (.tru c!"sslclientcert"), [.lit c!" --sslclientcert=\"", .fld c!"sslclientcert", .lit c!"\""]),
    (.and (.tru c!"seen") (.tru c!"sslclientkey"), [.lit c!" --sslclientkey=\"", .fld c!"sslclientkey", .lit c!"\""]),
    (.tru c!"seen", [.lit c!"\n"])]

theorem F30_Url.text (d : Ns) : F30_Url.strText d = F30_Url.out.render d := by
  have e : F27_Url.strOut.render d = F27_Url.out.render d ++ if (Cond.tru c!"seen").eval d then c!"\n" else [] := by
    have : F27_Url.strOut = F27_Url.out ++ [(.tru c!"seen", [.lit c!"\n"])] := by decide +kernel
    rw [this, render_append, render_one]
    simp [Frag.render]
  have e' : (Cond.tru c!"seen").eval d = false → F27_Url.out.render d = [] := by
    intro h
    simp only [Cond.eval] at h
    simp [F27_Url.out, F27_Url.strOut, Out.render, pieceText, Cond.eval, h]
  unfold F30_Url.strText F30_Url.out
  rw [e, render_append]
  generalize F27_Url.out.render d = t at e'
  cases hs : (Cond.tru c!"seen").eval d with
  | false =>
    rw [e' hs]
    simp only [Cond.eval] at hs
    simp [Out.render, pieceText, Cond.eval, hs]
  | true =>
    have hs' := hs
    simp only [Cond.eval] at hs
    simp only [Out.render, pieceText, Cond.eval, hs, Frag.render, List.map_cons, List.map_nil, Bool.true_and]
    simp
    (repeat' split) <;> simp

/-- The text of `url` with one of its sources. -/
def urlBy (k : Str) (tail : Out) : Out :=
  (.tru c!"seen", [.lit c!"# Use network installation\nurl"]) :: (.and (.tru c!"seen") (.tru k), [.lit (c!" --" ++ k ++ c!"=\""), .fld k, .lit c!"\""]) :: tail

theorem render_split {a o : Out} (n : Nat) (d : Ns) (h : Out.render (o.take n) d = a.render d) : o.render d = Out.render (a ++ o.drop n) d := by
  rw [render_append, ← h, ← render_append, List.take_append_drop]

/-- Closes the equation between the text of `url` and that with one source. -/
macro "url_by" n:num : tactic => `(tactic| (
  refine render_split (a := [_, _]) $n _ ?_
  simp only [F18_Url.strOut, F27_Url.strOut, F27_Url.out, F30_Url.out, List.take, List.cons_append, List.dropLast, Out.render, pieceText, List.map_cons, List.map_nil, Frag.render, Cond.eval]
  simp_all [Cond.eval]
  (try split) <;> simp))

theorem F18_Url.byUrl (d : Ns) (h : (Cond.tru c!"url").eval d = true) : F18_Url.strOut.render d = (urlBy c!"url" (F18_Url.strOut.drop 3)).render d := by
  url_by 3
theorem F18_Url.byMirror (d : Ns) (h : (Cond.not (.tru c!"url")).eval d = true) (h2 : (Cond.tru c!"mirrorlist").eval d = true) :
    F18_Url.strOut.render d = (urlBy c!"mirrorlist" (F18_Url.strOut.drop 3)).render d := by
  url_by 3
theorem F27_Url.byUrl (d : Ns) (h : (Cond.tru c!"url").eval d = true) : F27_Url.strOut.render d = (urlBy c!"url" (F27_Url.strOut.drop 4)).render d := by
  url_by 4
theorem F27_Url.byMirror (d : Ns) (h : (Cond.not (.tru c!"url")).eval d = true) (h2 : (Cond.tru c!"mirrorlist").eval d = true) :
    F27_Url.strOut.render d = (urlBy c!"mirrorlist" (F27_Url.strOut.drop 4)).render d := by
  url_by 4
theorem F27_Url.byMeta (d : Ns) (h : (Cond.not (.tru c!"url")).eval d = true) (h2 : (Cond.not (.tru c!"mirrorlist")).eval d = true)
    (h3 : (Cond.tru c!"metalink").eval d = true) : F27_Url.strOut.render d = (urlBy c!"metalink" (F27_Url.strOut.drop 4)).render d := by
  url_by 4
theorem F30_Url.byUrl (d : Ns) (h : (Cond.tru c!"url").eval d = true) : F30_Url.strText d = (urlBy c!"url" (F30_Url.out.drop 4)).render d := by
  rw [F30_Url.text]
  url_by 4
theorem F30_Url.byMirror (d : Ns) (h : (Cond.not (.tru c!"url")).eval d = true) (h2 : (Cond.tru c!"mirrorlist").eval d = true) :
    F30_Url.strText d = (urlBy c!"mirrorlist" (F30_Url.out.drop 4)).render d := by
  rw [F30_Url.text]
  url_by 4
theorem F30_Url.byMeta (d : Ns) (h : (Cond.not (.tru c!"url")).eval d = true) (h2 : (Cond.not (.tru c!"mirrorlist")).eval d = true)
    (h3 : (Cond.tru c!"metalink").eval d = true) : F30_Url.strText d = (urlBy c!"metalink" (F30_Url.out.drop 4)).render d := by
  rw [F30_Url.text]
  url_by 4

/-! ## `clearpart` -/

/-- The text of `clearpart` before the newline. -/
def FC3_ClearPart.out : Out := FC3_ClearPart.strOut.dropLast
/-- The text of `clearpart` before the newline. -/
def F17_ClearPart.out : Out := FC3_ClearPart.out ++ Out.under (.and (.not (.eq c!"type" .none)) (.tru c!"devices")) [(.tt, [.lit c!" --list=", .join c!"," c!"devices"])]
/-- The text of `clearpart` before the newline. -/
def F21_ClearPart.out : Out := F17_ClearPart.out ++ Out.under (.and (.not (.eq c!"type" .none)) (.tru c!"disklabel")) [(.tt, [.lit c!" --disklabel=", .fld c!"disklabel"])]
/-- The text of `clearpart` before the newline. -/
def F28_ClearPart.out : Out := F21_ClearPart.out ++ Out.under (.and (.not (.eq c!"type" .none)) (.tru c!"cdl")) [(.tt, [.lit c!" --cdl"])]

theorem FC3_ClearPart.lined : Lined [c!"drives", c!"devices", c!"disklabel"] [] FC3_ClearPart.strOut.render (.not (.eq c!"type" .none)) FC3_ClearPart.out := by
  refine Lined.base (by decide +kernel) fun d => ?_
  rw [show FC3_ClearPart.out ++ [(.not (.eq c!"type" .none), [.lit c!"\n"])] = FC3_ClearPart.strOut by decide +kernel]

theorem F17_ClearPart.lined : Lined [c!"drives", c!"devices", c!"disklabel"] [] F17_ClearPart.strText (.not (.eq c!"type" .none)) F17_ClearPart.out :=
  FC3_ClearPart.lined.step_rstrip _ _ (by decide +kernel) (by lined_eq F17_ClearPart.strText)

theorem F21_ClearPart.lined : Lined [c!"drives", c!"devices", c!"disklabel"] [] F21_ClearPart.strText (.not (.eq c!"type" .none)) F21_ClearPart.out :=
  F17_ClearPart.lined.step_rstrip _ _ (by decide +kernel) (by lined_eq F21_ClearPart.strText)

theorem F28_ClearPart.lined : Lined [c!"drives", c!"devices", c!"disklabel"] [] F28_ClearPart.strText (.not (.eq c!"type" .none)) F28_ClearPart.out :=
  F21_ClearPart.lined.step_rstrip _ _ (by decide +kernel) (by lined_eq F28_ClearPart.strText)

/-! ## `autopart` -/

/-- The condition for `autopart` to be written. -/
abbrev apOn : Cond := .tru c!"autopart"
/-- The attributes at the end of the text of `autopart`. -/
abbrev apEnds : List Str := [c!"fstype", c!"luks_version", c!"pbkdf", c!"pbkdf_memory", c!"pbkdf_time", c!"pbkdf_iterations"]

/-- The text after one step. -/
def apStep (c : Cond) (o : Out) (f : Ns → Str) (d : Ns) : Str :=
  if apOn.eval d && c.eval d then strip (f d) ++ o.render d ++ c!"\n" else f d

theorem Lined.ap {f : Ns → Str} {o : Out} (L : Lined apEnds [] f apOn o) (c : Cond) (o2 : Out)
    (ok : linedOk apEnds [] apOn (o ++ Out.under (.and apOn c) o2) = true) :
    Lined apEnds [] (apStep c o2 f) apOn (o ++ Out.under (.and apOn c) o2) :=
  L.step_strip c o2 ok fun _ => rfl

/-- Closes the equation between a `__str__` method of `autopart` and its steps. -/
macro "ap_eq" f:ident : tactic => `(tactic| (
  funext d
  unfold $f
  simp only [apStep, render_tt, render_tt_cons, List.map_cons, List.map_nil, List.flatten_cons, List.flatten_nil, List.append_nil, Frag.render, List.append_assoc, Cond.eval]
  by_cases hg : (d.getD c!"autopart").truthy = true
  · simp only [hg, Bool.not_true, Bool.true_and, Bool.false_eq_true, if_false]
    try ((repeat' split) <;> simp_all)
  · simp [hg]))

/-- The text of `autopart` before the newline. -/
def F9_AutoPart.out : Out := F9_AutoPart.strOut.dropLast

theorem F9_AutoPart.lined : Lined apEnds [] F9_AutoPart.strOut.render apOn F9_AutoPart.out := by
  refine Lined.base (by decide +kernel) fun d => ?_
  rw [show F9_AutoPart.out ++ [(apOn, [.lit c!"\n"])] = F9_AutoPart.strOut by decide +kernel]

/-- The pieces for the types of partitioning. -/
abbrev apType (n : Int) (s : Str) : Cond × Out := (.eq c!"type" (.int n), [(.tt, [.lit s])])

theorem apStep_type (d : Ns) (f : Ns → Str) (n : Int) (s : Str) :
    apStep (.eq c!"type" (.int n)) [(.tt, [.lit s])] f d =
      if apOn.eval d && (d.getD c!"type").pyEq (.int n) then strip (f d) ++ s ++ c!"\n" else f d := by
  simp only [apStep, render_tt, List.map_cons, List.map_nil, List.flatten_cons, List.flatten_nil, List.append_nil, Frag.render, Cond.eval]
  rfl

/-- The text of `autopart` before the newline. -/
def F12_AutoPart.out : Out := (F9_AutoPart.out ++ Out.under (.and apOn (.and (.tru c!"encrypted") (.tru c!"escrowcert"))) [(.tt, [.lit c!" --escrowcert=\"", .fld c!"escrowcert", .lit c!"\""]), (.tru c!"backuppassphrase", [.lit c!" --backuppassphrase"])])

theorem F12_AutoPart.lined : Lined apEnds [] (F12_AutoPart.strText) apOn F12_AutoPart.out := by
  have e : F12_AutoPart.strText = (apStep (.and (.tru c!"encrypted") (.tru c!"escrowcert")) [(.tt, [.lit c!" --escrowcert=\"", .fld c!"escrowcert", .lit c!"\""]), (.tru c!"backuppassphrase", [.lit c!" --backuppassphrase"])] F9_AutoPart.strOut.render) := by
    ap_eq F12_AutoPart.strText
  rw [e]
  exact (F9_AutoPart.lined.ap (.and (.tru c!"encrypted") (.tru c!"escrowcert")) [(.tt, [.lit c!" --escrowcert=\"", .fld c!"escrowcert", .lit c!"\""]), (.tru c!"backuppassphrase", [.lit c!" --backuppassphrase"])] (by decide +kernel))

/-- The text of `autopart` before the newline. -/
def RHEL6_AutoPart.out : Out := (F12_AutoPart.out ++ Out.under (.and apOn (.and (.tru c!"encrypted") (.tru c!"cipher"))) [(.tt, [.lit c!" --cipher=\"", .fld c!"cipher", .lit c!"\""])])

theorem RHEL6_AutoPart.lined : Lined apEnds [] (RHEL6_AutoPart.strText) apOn RHEL6_AutoPart.out := by
  have e : RHEL6_AutoPart.strText = (apStep (.and (.tru c!"encrypted") (.tru c!"cipher")) [(.tt, [.lit c!" --cipher=\"", .fld c!"cipher", .lit c!"\""])] F12_AutoPart.strText) := by
    ap_eq RHEL6_AutoPart.strText
  rw [e]
  exact (F12_AutoPart.lined.ap (.and (.tru c!"encrypted") (.tru c!"cipher")) [(.tt, [.lit c!" --cipher=\"", .fld c!"cipher", .lit c!"\""])] (by decide +kernel))

/-- The text of `autopart` before the newline. -/
def F16_AutoPart.out : Out := (F12_AutoPart.out ++ Out.under (.and apOn (.not (.tru c!"lvm"))) [(.tt, [.lit c!" --nolvm"])])

theorem F16_AutoPart.lined : Lined apEnds [] (F16_AutoPart.strText) apOn F16_AutoPart.out := by
  have e : F16_AutoPart.strText = (apStep (.not (.tru c!"lvm")) [(.tt, [.lit c!" --nolvm"])] F12_AutoPart.strText) := by
    ap_eq F16_AutoPart.strText
  rw [e]
  exact (F12_AutoPart.lined.ap (.not (.tru c!"lvm")) [(.tt, [.lit c!" --nolvm"])] (by decide +kernel))

/-- The text of `autopart` before the newline. -/
def F17_AutoPart.out : Out := (((F16_AutoPart.out ++ Out.under (.and apOn (.eq c!"type" (.int 2))) [(.tt, [.lit c!" --type=lvm"])]) ++ Out.under (.and apOn (.eq c!"type" (.int 1))) [(.tt, [.lit c!" --type=btrfs"])]) ++ Out.under (.and apOn (.eq c!"type" (.int 0))) [(.tt, [.lit c!" --type=plain"])])

theorem F17_AutoPart.lined : Lined apEnds [] (F17_AutoPart.strText [(c!"lvm", .int 2), (c!"btrfs", .int 1), (c!"plain", .int 0), (c!"partition", .int 0)]) apOn F17_AutoPart.out := by
  have e : F17_AutoPart.strText [(c!"lvm", .int 2), (c!"btrfs", .int 1), (c!"plain", .int 0), (c!"partition", .int 0)] = (apStep (.eq c!"type" (.int 0)) [(.tt, [.lit c!" --type=plain"])] (apStep (.eq c!"type" (.int 1)) [(.tt, [.lit c!" --type=btrfs"])] (apStep (.eq c!"type" (.int 2)) [(.tt, [.lit c!" --type=lvm"])] F16_AutoPart.strText))) := by
    funext d
    unfold F17_AutoPart.strText typeAsStr
    simp only [apStep_type]
    simp only [Cond.eval, List.find?_cons, List.find?_nil]
    by_cases hg : (d.getD c!"autopart").truthy = true
    · simp only [hg, Bool.not_true, Bool.true_and, Bool.false_eq_true, if_false]
      cases d.getD c!"type" with
      | int n =>
        by_cases h2 : n = 2
        · subst h2; simp [Val.pyEq]
        by_cases h1 : n = 1
        · subst h1; simp [Val.pyEq]
        by_cases h0 : n = 0
        · subst h0; simp [Val.pyEq]
        by_cases h3 : n = 3
        · subst h3; simp [Val.pyEq]
        have e : ∀ k : Int, n ≠ k → ((Val.int k).pyEq (.int n) = false ∧ (Val.int n).pyEq (.int k) = false) := by
          intro k hk
          simp [Val.pyEq, hk, Ne.symm hk]
        simp [e 2 h2, e 1 h1, e 0 h0, e 3 h3]
      | bool b => cases b <;> simp [Val.pyEq]
      | _ => simp [Val.pyEq]
    · simp [hg]
  rw [e]
  exact (((F16_AutoPart.lined.ap (.eq c!"type" (.int 2)) [(.tt, [.lit c!" --type=lvm"])] (by decide +kernel)).ap (.eq c!"type" (.int 1)) [(.tt, [.lit c!" --type=btrfs"])] (by decide +kernel)).ap (.eq c!"type" (.int 0)) [(.tt, [.lit c!" --type=plain"])] (by decide +kernel))

/-- The text of `autopart` before the newline. -/
def F18_AutoPart.out : Out := (F17_AutoPart.out ++ Out.under (.and apOn (.and (.tru c!"encrypted") (.tru c!"cipher"))) [(.tt, [.lit c!" --cipher=\"", .fld c!"cipher", .lit c!"\""])])

theorem F18_AutoPart.lined : Lined apEnds [] (F18_AutoPart.strText [(c!"lvm", .int 2), (c!"btrfs", .int 1), (c!"plain", .int 0), (c!"partition", .int 0)]) apOn F18_AutoPart.out := by
  have e : F18_AutoPart.strText [(c!"lvm", .int 2), (c!"btrfs", .int 1), (c!"plain", .int 0), (c!"partition", .int 0)] = (apStep (.and (.tru c!"encrypted") (.tru c!"cipher")) [(.tt, [.lit c!" --cipher=\"", .fld c!"cipher", .lit c!"\""])] (F17_AutoPart.strText [(c!"lvm", .int 2), (c!"btrfs", .int 1), (c!"plain", .int 0), (c!"partition", .int 0)])) := by
    ap_eq F18_AutoPart.strText
  rw [e]
  exact (F17_AutoPart.lined.ap (.and (.tru c!"encrypted") (.tru c!"cipher")) [(.tt, [.lit c!" --cipher=\"", .fld c!"cipher", .lit c!"\""])] (by decide +kernel))

/-- The text of `autopart` before the newline. -/
def F17_AutoPart.T.out : Out := ((((F16_AutoPart.out ++ Out.under (.and apOn (.eq c!"type" (.int 2))) [(.tt, [.lit c!" --type=lvm"])]) ++ Out.under (.and apOn (.eq c!"type" (.int 1))) [(.tt, [.lit c!" --type=btrfs"])]) ++ Out.under (.and apOn (.eq c!"type" (.int 0))) [(.tt, [.lit c!" --type=plain"])]) ++ Out.under (.and apOn (.eq c!"type" (.int 3))) [(.tt, [.lit c!" --type=thinp"])])

theorem F17_AutoPart.T.lined : Lined apEnds [] (F17_AutoPart.strText [(c!"lvm", .int 2), (c!"btrfs", .int 1), (c!"plain", .int 0), (c!"partition", .int 0), (c!"thinp", .int 3)]) apOn F17_AutoPart.T.out := by
  have e : F17_AutoPart.strText [(c!"lvm", .int 2), (c!"btrfs", .int 1), (c!"plain", .int 0), (c!"partition", .int 0), (c!"thinp", .int 3)] = (apStep (.eq c!"type" (.int 3)) [(.tt, [.lit c!" --type=thinp"])] (apStep (.eq c!"type" (.int 0)) [(.tt, [.lit c!" --type=plain"])] (apStep (.eq c!"type" (.int 1)) [(.tt, [.lit c!" --type=btrfs"])] (apStep (.eq c!"type" (.int 2)) [(.tt, [.lit c!" --type=lvm"])] F16_AutoPart.strText)))) := by
    funext d
    unfold F17_AutoPart.strText typeAsStr
    simp only [apStep_type]
    simp only [Cond.eval, List.find?_cons, List.find?_nil]
    by_cases hg : (d.getD c!"autopart").truthy = true
    · simp only [hg, Bool.not_true, Bool.true_and, Bool.false_eq_true, if_false]
      cases d.getD c!"type" with
      | int n =>
        by_cases h2 : n = 2
        · subst h2; simp [Val.pyEq]
        by_cases h1 : n = 1
        · subst h1; simp [Val.pyEq]
        by_cases h0 : n = 0
        · subst h0; simp [Val.pyEq]
        by_cases h3 : n = 3
        · subst h3; simp [Val.pyEq]
        have e : ∀ k : Int, n ≠ k → ((Val.int k).pyEq (.int n) = false ∧ (Val.int n).pyEq (.int k) = false) := by
          intro k hk
          simp [Val.pyEq, hk, Ne.symm hk]
        simp [e 2 h2, e 1 h1, e 0 h0, e 3 h3]
      | bool b => cases b <;> simp [Val.pyEq]
      | _ => simp [Val.pyEq]
    · simp [hg]
  rw [e]
  exact ((((F16_AutoPart.lined.ap (.eq c!"type" (.int 2)) [(.tt, [.lit c!" --type=lvm"])] (by decide +kernel)).ap (.eq c!"type" (.int 1)) [(.tt, [.lit c!" --type=btrfs"])] (by decide +kernel)).ap (.eq c!"type" (.int 0)) [(.tt, [.lit c!" --type=plain"])] (by decide +kernel)).ap (.eq c!"type" (.int 3)) [(.tt, [.lit c!" --type=thinp"])] (by decide +kernel))

/-- The text of `autopart` before the newline. -/
def F18_AutoPart.T.out : Out := (F17_AutoPart.T.out ++ Out.under (.and apOn (.and (.tru c!"encrypted") (.tru c!"cipher"))) [(.tt, [.lit c!" --cipher=\"", .fld c!"cipher", .lit c!"\""])])

theorem F18_AutoPart.T.lined : Lined apEnds [] (F18_AutoPart.strText [(c!"lvm", .int 2), (c!"btrfs", .int 1), (c!"plain", .int 0), (c!"partition", .int 0), (c!"thinp", .int 3)]) apOn F18_AutoPart.T.out := by
  have e : F18_AutoPart.strText [(c!"lvm", .int 2), (c!"btrfs", .int 1), (c!"plain", .int 0), (c!"partition", .int 0), (c!"thinp", .int 3)] = (apStep (.and (.tru c!"encrypted") (.tru c!"cipher")) [(.tt, [.lit c!" --cipher=\"", .fld c!"cipher", .lit c!"\""])] (F17_AutoPart.strText [(c!"lvm", .int 2), (c!"btrfs", .int 1), (c!"plain", .int 0), (c!"partition", .int 0), (c!"thinp", .int 3)])) := by
    ap_eq F18_AutoPart.strText
  rw [e]
  exact (F17_AutoPart.T.lined.ap (.and (.tru c!"encrypted") (.tru c!"cipher")) [(.tt, [.lit c!" --cipher=\"", .fld c!"cipher", .lit c!"\""])] (by decide +kernel))

/-- The text of `autopart` before the newline. -/
def F21_AutoPart.out : Out := (F18_AutoPart.T.out ++ Out.under (.and apOn (.tru c!"fstype")) [(.tt, [.lit c!" --fstype=", .fld c!"fstype"])])

theorem F21_AutoPart.lined : Lined apEnds [] (F21_AutoPart.strText [(c!"lvm", .int 2), (c!"btrfs", .int 1), (c!"plain", .int 0), (c!"partition", .int 0), (c!"thinp", .int 3)]) apOn F21_AutoPart.out := by
  have e : F21_AutoPart.strText [(c!"lvm", .int 2), (c!"btrfs", .int 1), (c!"plain", .int 0), (c!"partition", .int 0), (c!"thinp", .int 3)] = (apStep (.tru c!"fstype") [(.tt, [.lit c!" --fstype=", .fld c!"fstype"])] (F18_AutoPart.strText [(c!"lvm", .int 2), (c!"btrfs", .int 1), (c!"plain", .int 0), (c!"partition", .int 0), (c!"thinp", .int 3)])) := by
    ap_eq F21_AutoPart.strText
  rw [e]
  exact (F18_AutoPart.T.lined.ap (.tru c!"fstype") [(.tt, [.lit c!" --fstype=", .fld c!"fstype"])] (by decide +kernel))

/-- The text of `autopart` before the newline. -/
def RHEL7_AutoPart.out : Out := (F21_AutoPart.out ++ Out.under (.and apOn (.tru c!"nohome")) [(.tt, [.lit c!" --nohome"])])

theorem RHEL7_AutoPart.lined : Lined apEnds [] (RHEL7_AutoPart.strText [(c!"lvm", .int 2), (c!"btrfs", .int 1), (c!"plain", .int 0), (c!"partition", .int 0), (c!"thinp", .int 3)]) apOn RHEL7_AutoPart.out := by
  have e : RHEL7_AutoPart.strText [(c!"lvm", .int 2), (c!"btrfs", .int 1), (c!"plain", .int 0), (c!"partition", .int 0), (c!"thinp", .int 3)] = (apStep (.tru c!"nohome") [(.tt, [.lit c!" --nohome"])] (F21_AutoPart.strText [(c!"lvm", .int 2), (c!"btrfs", .int 1), (c!"plain", .int 0), (c!"partition", .int 0), (c!"thinp", .int 3)])) := by
    ap_eq RHEL7_AutoPart.strText
  rw [e]
  exact (F21_AutoPart.lined.ap (.tru c!"nohome") [(.tt, [.lit c!" --nohome"])] (by decide +kernel))

/-- The text of `autopart` before the newline. -/
def F26_AutoPart.out : Out := (((F21_AutoPart.out ++ Out.under (.and apOn (.tru c!"nohome")) [(.tt, [.lit c!" --nohome"])]) ++ Out.under (.and apOn (.tru c!"noboot")) [(.tt, [.lit c!" --noboot"])]) ++ Out.under (.and apOn (.tru c!"noswap")) [(.tt, [.lit c!" --noswap"])])

theorem F26_AutoPart.lined : Lined apEnds [] (F26_AutoPart.strText [(c!"lvm", .int 2), (c!"btrfs", .int 1), (c!"plain", .int 0), (c!"partition", .int 0), (c!"thinp", .int 3)]) apOn F26_AutoPart.out := by
  have e : F26_AutoPart.strText [(c!"lvm", .int 2), (c!"btrfs", .int 1), (c!"plain", .int 0), (c!"partition", .int 0), (c!"thinp", .int 3)] = (apStep (.tru c!"noswap") [(.tt, [.lit c!" --noswap"])] (apStep (.tru c!"noboot") [(.tt, [.lit c!" --noboot"])] (apStep (.tru c!"nohome") [(.tt, [.lit c!" --nohome"])] (F21_AutoPart.strText [(c!"lvm", .int 2), (c!"btrfs", .int 1), (c!"plain", .int 0), (c!"partition", .int 0), (c!"thinp", .int 3)])))) := by
    ap_eq F26_AutoPart.strText
  rw [e]
  exact (((F21_AutoPart.lined.ap (.tru c!"nohome") [(.tt, [.lit c!" --nohome"])] (by decide +kernel)).ap (.tru c!"noboot") [(.tt, [.lit c!" --noboot"])] (by decide +kernel)).ap (.tru c!"noswap") [(.tt, [.lit c!" --noswap"])] (by decide +kernel))

/-- The text of `autopart` before the newline. -/
def F29_AutoPart.out : Out := (((((F26_AutoPart.out ++ Out.under (.and apOn (.and (.tru c!"encrypted") (.tru c!"luks_version"))) [(.tt, [.lit c!" --luks-version=", .fld c!"luks_version"])]) ++ Out.under (.and apOn (.and (.tru c!"encrypted") (.tru c!"pbkdf"))) [(.tt, [.lit c!" --pbkdf=", .fld c!"pbkdf"])]) ++ Out.under (.and apOn (.and (.tru c!"encrypted") (.tru c!"pbkdf_memory"))) [(.tt, [.lit c!" --pbkdf-memory=", .fld c!"pbkdf_memory"])]) ++ Out.under (.and apOn (.and (.tru c!"encrypted") (.tru c!"pbkdf_time"))) [(.tt, [.lit c!" --pbkdf-time=", .fld c!"pbkdf_time"])]) ++ Out.under (.and apOn (.and (.tru c!"encrypted") (.tru c!"pbkdf_iterations"))) [(.tt, [.lit c!" --pbkdf-iterations=", .fld c!"pbkdf_iterations"])])

theorem F29_AutoPart.lined : Lined apEnds [] (F29_AutoPart.strText [(c!"lvm", .int 2), (c!"btrfs", .int 1), (c!"plain", .int 0), (c!"partition", .int 0), (c!"thinp", .int 3)]) apOn F29_AutoPart.out := by
  have e : F29_AutoPart.strText [(c!"lvm", .int 2), (c!"btrfs", .int 1), (c!"plain", .int 0), (c!"partition", .int 0), (c!"thinp", .int 3)] = (apStep (.and (.tru c!"encrypted") (.tru c!"pbkdf_iterations")) [(.tt, [.lit c!" --pbkdf-iterations=", .fld c!"pbkdf_iterations"])] (apStep (.and (.tru c!"encrypted") (.tru c!"pbkdf_time")) [(.tt, [.lit c!" --pbkdf-time=", .fld c!"pbkdf_time"])] (apStep (.and (.tru c!"encrypted") (.tru c!"pbkdf_memory")) [(.tt, [.lit c!" --pbkdf-memory=", .fld c!"pbkdf_memory"])] (apStep (.and (.tru c!"encrypted") (.tru c!"pbkdf")) [(.tt, [.lit c!" --pbkdf=", .fld c!"pbkdf"])] (apStep (.and (.tru c!"encrypted") (.tru c!"luks_version")) [(.tt, [.lit c!" --luks-version=", .fld c!"luks_version"])] (F26_AutoPart.strText [(c!"lvm", .int 2), (c!"btrfs", .int 1), (c!"plain", .int 0), (c!"partition", .int 0), (c!"thinp", .int 3)])))))) := by
    ap_eq F29_AutoPart.strText
  rw [e]
  exact (((((F26_AutoPart.lined.ap (.and (.tru c!"encrypted") (.tru c!"luks_version")) [(.tt, [.lit c!" --luks-version=", .fld c!"luks_version"])] (by decide +kernel)).ap (.and (.tru c!"encrypted") (.tru c!"pbkdf")) [(.tt, [.lit c!" --pbkdf=", .fld c!"pbkdf"])] (by decide +kernel)).ap (.and (.tru c!"encrypted") (.tru c!"pbkdf_memory")) [(.tt, [.lit c!" --pbkdf-memory=", .fld c!"pbkdf_memory"])] (by decide +kernel)).ap (.and (.tru c!"encrypted") (.tru c!"pbkdf_time")) [(.tt, [.lit c!" --pbkdf-time=", .fld c!"pbkdf_time"])] (by decide +kernel)).ap (.and (.tru c!"encrypted") (.tru c!"pbkdf_iterations")) [(.tt, [.lit c!" --pbkdf-iterations=", .fld c!"pbkdf_iterations"])] (by decide +kernel))

end Ks
