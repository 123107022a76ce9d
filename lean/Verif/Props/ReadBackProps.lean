import Verif.Commands.ReadBackPart
import Verif.Commands.ReadBackLogvol
import Verif.Commands.ReadBackNetwork
import Verif.Commands.ReadBackOthers
import Verif.Props.RuleProps
/-!
# C61: the text of an object is read back
-/
namespace Ks

open Cmd

/-! ## Specification -/

/-- The text that the command writes if its data list holds this object alone. -/
def objectText (v : Nat) (n : Str) (d : Ns) : Str :=
  match (commandMap v).lookup n with
  | some c => c.str { attrs := { data := [d] } }
  | none => []

/-! ## The commands with sheets -/

theorem sheets_readsBack : ∀ x ∈ sheets, ∀ y ∈ commandMaps, ∀ c, y.2.lookup x.1 = some c → c.hasList { attrs := {} } = true → ∃ base, c.ReadsBack (x.2 y.1) base := by
  unfold sheets
  exact all_cons readsBack_part (all_cons readsBack_partition (all_cons readsBack_logvol (all_cons readsBack_network (all_cons readsBack_repo
    (all_cons readsBack_driverdisk (all_cons readsBack_sshpw (all_cons readsBack_sshkey (all_cons readsBack_device (all_cons readsBack_user
    (all_cons readsBack_group (all_cons readsBack_fcoe (all_cons readsBack_iscsi (all_cons readsBack_zfcp (all_cons readsBack_module
    (all_cons readsBack_timesource (List.forall_mem_nil _))))))))))))))))

theorem sheet_names : ∀ x ∈ sheets, ∀ v, ∀ m ∈ (x.2 v).names, SameCommand m x.1 := by
  have h : ∀ x ∈ sheets, (∀ v, (x.2 v).names = (x.2 0).names) ∧ ∀ m ∈ (x.2 0).names, SameCommand m x.1 := by
    unfold sheets
    iterate 16 refine all_cons ⟨fun _ => rfl, by decide⟩ ?_
    exact List.forall_mem_nil _
  intro x hx v m hm
  rw [(h x hx).1 v] at hm
  exact (h x hx).2 m hm

theorem sheet_multipath : ∀ x ∈ sheets, x.1 ≠ c!"multipath" ∧ ∀ m, SameCommand m x.1 → m ≠ c!"multipath" := by
  have : ∀ x ∈ sheets, x.1 ≠ c!"multipath" ∧ ¬ SameCommand c!"multipath" x.1 := by
    unfold sheets
    iterate 16 refine all_cons (by decide) ?_
    exact List.forall_mem_nil _
  exact fun x hx => ⟨(this x hx).1, fun m hm e => (this x hx).2 (e ▸ hm)⟩

/-! ## C61 -/

/-- C61: take any object `d` that a command of the table `sheets` holds in a handler that has read any
lines, and whose values are words. The text of `d` consists of words, the name of the command and its
arguments. If another handler reads these words as a line and accepts them, it appends an object `d'`
that agrees with `d`: every claimed attribute has the value it has in `d`, or the value it has without
any option; and it has the value from `d` whenever that is true and the command writes it (`lossy`), and
for the attributes in `full` also if it is false. The value without options is the one in every object
that is read from a line without options. -/
theorem C61_read_back {v : Nat} (hv : Supported v) {n : Str} {sheet : Nat → Sheet} (hn : (n, sheet) ∈ sheets) (hl : ListCommand v n) :
    ∃ base : Ns, (∀ h, Session v h → h.commands.lookup n ≠ some none → ∀ l args line, (∀ a ∈ args, startsWith a c!"-" = false) →
        (h.dispatch l (n :: args) line).2 = none → ∃ d, dataOf (h.dispatch l (n :: args) line).1 n = dataOf h n ++ [d] ∧ ∀ k, k ∉ (sheet v).skip → d.get k = base.get k) ∧
      ∀ h, Session v h → ∀ d ∈ dataOf h n, (sheet v).Plain d →
      ∃ words, shlexSplit (objectText v n d) true = .ok words ∧
        ((words = [] ∧ ∀ g ∈ (sheet v).given, g.eval d = false) ∨
         ∃ m args, words = m :: args ∧ SameCommand m n ∧
          ∀ h', Session v h' → h'.commands.lookup m ≠ some none → ∀ l line, (h'.dispatch l (m :: args) line).2 = none →
            ∃ d', dataOf (h'.dispatch l (m :: args) line).1 m = dataOf h' m ++ [d'] ∧ (sheet v).Agree base d d') := by
  obtain ⟨c, hc, hli⟩ := hl
  obtain ⟨base, hr⟩ := sheets_readsBack _ hn _ (supported_mem hv) c hc hli
  obtain ⟨hb, hr⟩ := hr
  refine ⟨base, fun h s hmask l args line ha ok => ?_, fun h s d hd hp => ?_⟩
  · obtain ⟨d, t, i, h3, -, h4⟩ := accepted_value hv s hc hli (sheet_multipath _ hn).1 hmask ok
    exact ⟨d, h3, hb t args i d ha h4⟩
  obtain ⟨t, args0, i, hd0⟩ := session_data hv s (sheet_multipath _ hn).1 (R := fun d => ∃ t args i, (c.parse t args i).2 = .ok (some d))
    (fun c' hc' => by rw [hc] at hc'; cases hc'; exact fun t args i d hd => ⟨t, args, i, hd⟩) d hd
  obtain ⟨words, h1, h2⟩ := hr t args0 i d hd0 hp
  refine ⟨words, by simpa only [objectText, hc] using h1, ?_⟩
  rcases h2 with h2 | ⟨m, hm, args, e, h2⟩
  · exact .inl h2
  have hs := sheet_names _ hn v m hm
  refine .inr ⟨m, args, e, hs, fun h' s' hmask l line ok => ?_⟩
  have hcm : (commandMap v).lookup m = some c := by
    match hlk : h'.commands.lookup m with
    | none => rw [C48_unknown h' l m args line hlk] at ok; cases ok
    | some none => exact absurd hlk hmask
    | some (some r) =>
      obtain ⟨o, -, hmem⟩ := (session_inv hv s').served m r hlk
      have hmn := mem_of_lookup' hc
      have hsn : SameCommand n m := by
        rcases hs with rfl | ⟨g, hg, a, b⟩
        · exact .inl rfl
        · exact .inr ⟨g, hg, b, a⟩
      rw [list_class hv hmn hmem hsn hli]
      exact (mem_iff_lookup (supported_mapOk hv).dict).1 hmem
  obtain ⟨d', t', i', h3, -, h4⟩ := accepted_value hv s' hcm hli ((sheet_multipath _ hn).2 m hs) hmask ok
  exact ⟨d', h3, h2 t' i' d' h4⟩

/-! ### The hypotheses can be met -/

/-- Read one line. -/
def readOne (v : Nat) (ws : List Str) : Handler CState Ns := ((newHandler v).dispatch 1 ws []).1

theorem readOne_session (v : Nat) (ws : List Str) : Session v (readOne v ws) := .dispatch 1 ws [] .new

/-- The words of the text of the only object. -/
def wordsOf (v : Nat) (n : Str) (h : Handler CState Ns) : Option (List Str) :=
  match dataOf h n with
  | [d] => match shlexSplit (objectText v n d) true with
    | .ok ws => some ws
    | .error _ => none
  | _ => none

/-- The value of an attribute of the only object. -/
def valueOf (h : Handler CState Ns) (n k : Str) : Option Val :=
  match dataOf h n with
  | [d] => d.get k
  | _ => none

/-- A line without options is accepted. -/
example : ((newHandler Version.F34).dispatch 1 [c!"driverdisk", c!"sda1"] []).2 = none ∧ ((newHandler Version.FC3).dispatch 1 [c!"network"] []).2 = none := by decide +kernel

def partLine : List Str :=
  [c!"part", c!"/home", c!"--size=500", c!"--fstype=ext4", c!"--encrypted", c!"--passphrase=two words", c!"--grow", c!"--noformat"]

example : ListCommand Version.F34 c!"part" := by decide +kernel

/-- The object is plain, and its text is read and accepted by a new handler. -/
example : (∀ d ∈ dataOf (readOne Version.F34 partLine) c!"part", (partSheet Version.F34).Plain d) ∧
    (dataOf (readOne Version.F34 partLine) c!"part").length = 1 ∧
    wordsOf Version.F34 c!"part" (readOne Version.F34 partLine) = some [c!"part", c!"/home", c!"--fstype=ext4", c!"--grow", c!"--noformat", c!"--size=500",
      c!"--encrypted", c!"--passphrase=two words"] ∧
    ((newHandler Version.F34).dispatch 1 [c!"part", c!"/home", c!"--fstype=ext4", c!"--grow", c!"--noformat", c!"--size=500",
      c!"--encrypted", c!"--passphrase=two words"] []).2 = none := by decide +kernel

/-- The condition on `passphrase` cannot be dropped: without `--encrypted` a passphrase is not written. -/
theorem C61_passphrase_lost : valueOf (readOne Version.F34 [c!"part", c!"/", c!"--size=1", c!"--passphrase=x"]) c!"part" c!"passphrase" = some (.str c!"x") ∧
    wordsOf Version.F34 c!"part" (readOne Version.F34 [c!"part", c!"/", c!"--size=1", c!"--passphrase=x"]) = some [c!"part", c!"/", c!"--size=1"] := by
  decide +kernel

/-- In Fedora 12, the deprecated option `--bytes-per-inode` is accepted and its value is not written. -/
theorem C61_inodes_lost :
    valueOf (readOne Version.F12 [c!"part", c!"/", c!"--size=1", c!"--bytes-per-inode=4096"]) c!"part" c!"bytes_per_inode" = some (.str c!"4096") ∧
    wordsOf Version.F12 c!"part" (readOne Version.F12 [c!"part", c!"/", c!"--size=1", c!"--bytes-per-inode=4096"]) = some [c!"part", c!"/", c!"--size=1"] := by
  decide +kernel

/-- A group number 0 is not written. -/
theorem C61_gid_lost : valueOf (readOne Version.F34 [c!"group", c!"--name=g", c!"--gid=0"]) c!"group" c!"gid" = some (.int 0) ∧
    wordsOf Version.F34 c!"group" (readOne Version.F34 [c!"group", c!"--name=g", c!"--gid=0"]) = some [c!"group", c!"--name=g"] := by
  decide +kernel

/-- Values that are not words are not read back: a blank in the name of a group splits it. -/
theorem C61_blank_split : wordsOf Version.F34 c!"group" (readOne Version.F34 [c!"group", c!"--name=a b"]) = some [c!"group", c!"--name=a", c!"b"] := by
  decide +kernel

end Ks
