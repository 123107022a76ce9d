import Verif.Commands.OwnRules
import Verif.Props.UnreadProps
/-!
# C64: the attributes of the commands satisfy the rules of the commands
-/
namespace Ks

open Cmd

/-- The attributes that the object for the name keeps for its command. -/
def ownOf (h : Handler CState Ns) (n : Str) : Ns :=
  match objectOf h n with
  | some o => o.inst.attrs.attrs
  | none => []

/-- An accepted line of a command. -/
theorem accepted_own {v : Nat} (hv : Supported v) {h : Handler CState Ns} (s : Session v h) {n : Str} {o : Obj CState Ns} (ho : objectOf h n = some o)
    {l : Nat} {args : List Str} {line : Str} (ok : (h.dispatch l (n :: args) line).2 = none) :
    (commandMap v).lookup n = some o.cls ∧ ∃ t i x, i.attrs.attrs = o.inst.attrs.attrs ∧ (o.cls.parse t args i).2 = .ok x ∧
      (x = none → ownOf (h.dispatch l (n :: args) line).1 n = (o.cls.parse t args i).1.attrs.attrs) := by
  have inv := session_inv hv s
  have hmap := supported_mapOk hv
  unfold objectOf at ho
  split at ho
  · rename_i r hlk
    obtain ⟨o', ho', hmem⟩ := inv.served n r hlk
    rw [ho] at ho'; cases ho'
    refine ⟨(mem_iff_lookup hmap.dict).1 hmem, ?_⟩
    have hd := dispatch_eq hlk ho l args line
    simp only at hd
    generalize hp : o.cls.parse (h.setInst r o (o.inst.noted n line l)).seenAttr args (o.inst.noted n line l) = p at hd
    rw [hd] at ok ⊢
    obtain ⟨j, x⟩ := p
    cases x with
    | error e => cases ok
    | ok x =>
      refine ⟨(h.setInst r o (o.inst.noted n line l)).seenAttr, o.inst.noted n line l, x, rfl, by rw [hp], ?_⟩
      rintro rfl
      rw [hp]
      have hr : r < h.heap.length := (List.getElem?_eq_some_iff.1 ho).1
      simp only [ownOf, objectOf, Handler.setInst, hlk, List.getElem?_set_self hr]
      rfl
  · cases ho

/-- C64: in every handler of every version, after a line that is accepted, the attributes of its command satisfy
the rules for the command, whatever lines came before. -/
theorem C64_rules {v : Nat} (hv : Supported v) {h : Handler CState Ns} (s : Session v h) {r : OwnRule} (hr : r ∈ ownRules) (hrv : r.versions v = true)
    (ho : (objectOf h r.cmd).isSome = true) {l : Nat} {args : List Str} {line : Str} (ok : (h.dispatch l (r.cmd :: args) line).2 = none) :
    r.holds args (ownOf (h.dispatch l (r.cmd :: args) line).1 r.cmd) := by
  obtain ⟨o, ho⟩ := Option.isSome_iff_exists.1 ho
  obtain ⟨hc, t, i, x, h1, h2, h3⟩ := accepted_own hv s ho ok
  obtain ⟨h4, h5⟩ := ownRules_kept r hr _ (supported_mem hv) hrv _ hc t args i x h2
  rw [h3 h4]; exact h5

/-- C64: after the first line of a command, its attributes also satisfy these rules. -/
theorem C64_first {v : Nat} (hv : Supported v) {h : Handler CState Ns} (s : Session v h) {r : OwnRule} (hr : r ∈ firstRules) (hrv : r.versions v = true)
    (hu : Unread h r.cmd) {l : Nat} {args : List Str} {line : Str} (ok : (h.dispatch l (r.cmd :: args) line).2 = none) :
    r.holds args (ownOf (h.dispatch l (r.cmd :: args) line).1 r.cmd) := by
  obtain ⟨c, hc, ho⟩ := unread_object hv s hu
  obtain ⟨hc', t, i, x, h1, h2, h3⟩ := accepted_own hv s ho ok
  obtain ⟨h4, h5⟩ := firstRules_kept r hr _ (supported_mem hv) hrv _ hc t args i x h1 h2
  rw [h3 h4]; exact h5

/-! ## What the rules do not say -/

/-- C64: a second line adds to the first, so that more than one source for packages can be given. -/
theorem C64_second_line : ((newHandler Version.F34).dispatch 1 [c!"url", c!"--url=http://a"] []).2 = none ∧
    (((newHandler Version.F34).dispatch 1 [c!"url", c!"--url=http://a"] []).1.dispatch 2 [c!"url", c!"--mirrorlist=http://b"] []).2 = none ∧
    (ownOf (((newHandler Version.F34).dispatch 1 [c!"url", c!"--url=http://a"] []).1.dispatch 2 [c!"url", c!"--mirrorlist=http://b"] []).1 c!"url").on c!"url" ∧
    (ownOf (((newHandler Version.F34).dispatch 1 [c!"url", c!"--url=http://a"] []).1.dispatch 2 [c!"url", c!"--mirrorlist=http://b"] []).1 c!"url").on c!"mirrorlist" := by
  decide +kernel

/-- C64: a line that is refused can leave attributes that do not satisfy the rules. -/
theorem C64_refused_line : ((newHandler Version.F34).dispatch 1 [c!"autopart", c!"--fstype=btrfs"] []).2.isSome = true ∧
    (ownOf ((newHandler Version.F34).dispatch 1 [c!"autopart", c!"--fstype=btrfs"] []).1 c!"autopart").getD c!"fstype" = .str c!"btrfs" := by decide +kernel

/-! ## Examples -/

/-- An object for the name, a line that is accepted, and one that is refused because of a rule. -/
def ruledLine (v : Nat) (n : Str) (good bad : List Str) : Bool :=
  (objectOf (newHandler v) n).isSome && decide (((newHandler v).dispatch 1 (n :: good) []).2 = none) && ((newHandler v).dispatch 1 (n :: bad) []).2.isSome

example : ruledLine Version.FC3 c!"autopart" [] [c!"x"] ∧ ruledLine Version.F34 c!"autopart" [c!"--fstype=xfs", c!"--type=lvm"] [c!"--fstype=xfs", c!"--type=btrfs"] ∧
    ruledLine Version.RHEL8 c!"autopart" [c!"--type=lvm"] [c!"--type=btrfs"] := by decide +kernel

example : ruledLine Version.F34 c!"bootloader" [c!"--boot-drive=sda"] [c!"--boot-drive=sda,sdb"] ∧ ruledLine Version.F34 c!"cdrom" [] [c!"x"] ∧
    ruledLine Version.F34 c!"hmc" [] [c!"x"] ∧ ruledLine Version.F34 c!"eula" [c!"--agreed"] [] := by decide +kernel

example : ruledLine Version.F32 c!"harddrive" [c!"--dir=/", c!"--partition=a"] [c!"--dir=/", c!"--partition=a", c!"--biospart=b"] ∧
    ruledLine Version.F34 c!"ignoredisk" [c!"--drives=a"] [c!"--drives=a", c!"--only-use=b"] ∧
    ruledLine Version.F20 c!"ignoredisk" [c!"--interactive"] [c!"--interactive", c!"--only-use=b"] ∧
    ruledLine Version.F34 c!"logging" [c!"--host=a", c!"--port=1"] [c!"--port=1"] := by decide +kernel

example : ruledLine Version.F34 c!"ostreesetup" [c!"--osname=a", c!"--url=http://x", c!"--ref=r"] [c!"--osname=a", c!"--url=ftp://x", c!"--ref=r"] ∧
    ruledLine Version.F34 c!"rescue" [c!"--nomount"] [c!"--nomount", c!"--romount"] ∧ ruledLine Version.F17 c!"rootpw" [c!"x"] [c!""] ∧
    ruledLine Version.F34 c!"rootpw" [c!"--lock"] [] := by decide +kernel

example : ruledLine Version.F34 c!"services" [c!"--enabled=a"] [] ∧ ruledLine Version.F34 c!"timezone" [c!"UTC", c!"--nontp"] [c!"UTC", c!"--nontp", c!"--ntpservers=a"] ∧
    ruledLine Version.F19 c!"upgrade" [c!"--root-device=a"] [c!"--root-device="] ∧ ruledLine Version.F34 c!"url" [c!"--url=a"] [c!"--noverifyssl"] ∧
    ruledLine Version.RHEL8 c!"rhsm" [c!"--organization=o", c!"--activation-key=k"] [c!"--organization=o", c!"--activation-key="] := by decide +kernel

end Ks
