import Verif.Commands.ConflictMaps
import Verif.Commands.Lines
import Verif.Props.CommandProps
/-!
# C56: storage commands that exclude each other

`readLines v ls`: the handler of version `v` after the command lines `ls`.
-/
namespace Ks

open Cmd

/-- The commands that make partitions, arrays and volumes one by one. -/
def partCommands : List Str := [c!"part", c!"partition", c!"raid", c!"volgroup", c!"logvol"]

/-- The commands that exclude each other in version `v`: `autopart` and the commands above (`RHEL6`,
`F20` and later); `autopart` and `reqpart` (`RHEL7`, `F23` and later); `mount` and all of these (`F27`
and later, which includes `RHEL8`). -/
inductive Conflict (v : Nat) : Str → Str → Prop
  | autopart {n : Str} : (v = Version.RHEL6 ∨ Version.F20 ≤ v) → n ∈ partCommands → Conflict v c!"autopart" n
  | reqpart : (v = Version.RHEL7 ∨ Version.F23 ≤ v) → Conflict v c!"autopart" c!"reqpart"
  | mount {n : Str} : Version.F27 ≤ v → n ∈ c!"autopart" :: c!"reqpart" :: partCommands → Conflict v c!"mount" n
  | symm {m n : Str} : Conflict v m n → Conflict v n m

/-- The table has both directions for `m` and `n`. -/
def Both (req mnt : Bool) (m n : Str) : Prop :=
  ∃ x ∈ refusals req mnt, ∃ y ∈ refusals req mnt, x.1 = m ∧ y.1 = n ∧ x.2.1 ≠ c!"upgrade" ∧ y.2.1 ≠ c!"upgrade" ∧ y.2.1 ∈ x.2.2 ∧ x.2.1 ∈ y.2.2

instance (req mnt : Bool) (m n : Str) : Decidable (Both req mnt m n) := by unfold Both; infer_instance

theorem both_autopart : ∀ req mnt, ∀ n ∈ partCommands, Both req mnt c!"autopart" n := by decide +kernel
theorem both_reqpart : ∀ mnt, Both true mnt c!"autopart" c!"reqpart" := by decide +kernel
theorem both_mount : ∀ n ∈ c!"autopart" :: c!"reqpart" :: partCommands, Both true true c!"mount" n := by decide +kernel

theorem conflict_both {v : Nat} {m n : Str} (hc : Conflict v m n) : (v = Version.RHEL6 ∨ Version.F20 ≤ v) ∧
    Both (decide (v = Version.RHEL7 ∨ Version.F23 ≤ v)) (decide (Version.F27 ≤ v)) m n := by
  induction hc with
  | autopart h hn => exact ⟨h, both_autopart _ _ _ hn⟩
  | reqpart h =>
    refine ⟨?_, by rw [decide_eq_true h]; exact both_reqpart _⟩
    rcases h with h | h
    · rw [h]; exact .inr (by decide)
    · exact .inr (Nat.le_trans (by decide) h)
  | mount h hn =>
    refine ⟨.inr (Nat.le_trans (by decide) h), ?_⟩
    rw [decide_eq_true h, decide_eq_true (.inr (Nat.le_trans (by decide) h) : v = Version.RHEL7 ∨ Version.F23 ≤ v)]
    exact both_mount _ hn
  | symm _ ih =>
    obtain ⟨h, x, hx, y, hy, h1, h2, h3, h4, h5, h6⟩ := ih
    exact ⟨h, y, hy, x, hx, h2, h1, h4, h3, h6, h5⟩

theorem conflict_classes {v : Nat} (hv : Supported v) {m n : Str} (hc : Conflict v m n) :
    ∃ c d, (m, c) ∈ commandMap v ∧ (n, d) ∈ commandMap v ∧ attrName c.name ≠ c!"upgrade" ∧ attrName d.name ≠ c!"upgrade" ∧
      c.Rejects (attrName d.name) ∧ d.Rejects (attrName c.name) := by
  obtain ⟨h, x, hx, y, hy, rfl, rfl, h3, h4, h5, h6⟩ := conflict_both hc
  obtain ⟨mp, hmp⟩ := lookup_isSome_of_key (l := commandMaps) hv
  have hmem : (v, mp) ∈ commandMaps := by
    obtain ⟨l1, l2, hl, _⟩ := List.lookup_eq_some_iff.1 hmp
    simp [hl]
  have hcm : commandMap v = mp := by simp [commandMap, hmp]
  have key := commandMaps_refusals (v, mp) hmem h
  rw [hcm]
  obtain ⟨c, c1, c2, c3⟩ := key x hx
  obtain ⟨d, d1, d2, d3⟩ := key y hy
  refine ⟨c, d, c1, d1, ?_, ?_, ?_, ?_⟩
  · rw [c2]; exact h3
  · rw [d2]; exact h4
  · rw [d2]; exact c3 _ h5
  · rw [c2]; exact d3 _ h6

/-- C56: once a line has named one of two commands that exclude each other, every line that names the
other raises an exception, whatever its arguments are, whatever other lines there were, and even if
the first line raised one itself. -/
theorem C56_refused {v : Nat} (hv : Supported v) {m n : Str} (hc : Conflict v m n) (ls : List (Nat × List Str × Str))
    {l : Nat × List Str × Str} (hl : l ∈ ls) {margs : List Str} (hm : l.2.1 = m :: margs) (lineno : Nat) (args : List Str) (line : Str) :
    ∃ e, ((readLines v ls).dispatch lineno (n :: args) line).2 = some e := by
  obtain ⟨c, d, h1, h2, h3, _, _, h6⟩ := conflict_classes hv hc
  obtain ⟨r, o, hs, ho, rfl, _⟩ := lines_served hv ls h2
  have hseen := (seenAttr_lines hv ls h1 h3).2 ⟨l, hl, m, margs, hm, h1⟩
  rw [dispatch_eq hs ho]
  have : ((readLines v ls).setInst r o (o.inst.noted n line lineno)).seenAttr (attrName c.name) = some true := by
    rw [seenAttr_setInst ho]
    split
    · rfl
    · exact hseen
  obtain ⟨e, he⟩ := h6 _ args (o.inst.noted n line lineno) this
  exact ⟨e, by simp only [he]⟩

/-- C56: it is a `KickstartParseError` with the number of the line (`mount` may raise an `IndexError` if
one of its arguments is `--`, see C55). -/
theorem C56_parse_error {v : Nat} (hv : Supported v) {m n : Str} (hc : Conflict v m n) (ls : List (Nat × List Str × Str))
    {l : Nat × List Str × Str} (hl : l ∈ ls) {margs : List Str} (hm : l.2.1 = m :: margs) (lineno : Nat) (args : List Str) (line : Str)
    (hn : ¬ odd v n args) : ∃ msg, ((readLines v ls).dispatch lineno (n :: args) line).2 = some (.parse msg (some lineno)) := by
  obtain ⟨e, he⟩ := C56_refused hv hc ls hl hm lineno args line
  obtain ⟨msg, rfl⟩ := C55_parse_errors hv (readLines_session v ls) lineno n args line hn he
  exact ⟨msg, he⟩

/-- Every line is accepted by the handler that has read the lines before it. -/
def AllAccepted (v : Nat) (ls : List (Nat × List Str × Str)) : Prop :=
  ∀ a l b, ls = a ++ l :: b → ((readLines v a).dispatch l.1 l.2.1 l.2.2).2 = none

/-- C56: no sequence of accepted lines has two commands that exclude each other. -/
theorem C56_exclusive {v : Nat} (hv : Supported v) (ls : List (Nat × List Str × Str)) (hok : AllAccepted v ls) {m n : Str} (hc : Conflict v m n)
    {l l' : Nat × List Str × Str} (hl : l ∈ ls) (hl' : l' ∈ ls) {margs nargs : List Str} (hm : l.2.1 = m :: margs) (hn : l'.2.1 = n :: nargs) :
    False := by
  have main : ∀ {m n : Str}, Conflict v m n → ∀ {l l' : Nat × List Str × Str} {margs nargs}, l.2.1 = m :: margs → l'.2.1 = n :: nargs →
      ∀ a b, ls = a ++ l' :: b → l ∈ a → False := by
    intro m n hc l l' margs nargs hm hn a b hab hla
    have h1 := hok a l' b hab
    rw [hn] at h1
    obtain ⟨e, he⟩ := C56_refused hv hc a hla hm l'.1 nargs l'.2.2
    rw [he] at h1; cases h1
  have hne : m ≠ n := by
    rintro rfl
    obtain ⟨a, b, hab⟩ := List.append_of_mem hl
    -- a command that excludes itself would be refused after itself
    clear hl' hn
    have : ∀ {m n : Str}, Conflict v m n → m ≠ n := by
      intro m n h
      induction h with
      | autopart _ h => rintro rfl; revert h; decide
      | reqpart => decide
      | mount _ h => rintro rfl; revert h; decide
      | symm _ ih => exact fun e => ih e.symm
    exact this hc rfl
  obtain ⟨a, b, hab⟩ := List.append_of_mem hl'
  have : l ∈ a ∨ l = l' ∨ l ∈ b := by
    rw [hab] at hl
    simpa using hl
  rcases this with h | h | h
  · exact main hc hm hn a b hab h
  · subst h
    rw [hm] at hn
    exact hne (List.cons.inj hn).1
  · obtain ⟨c, d, hcd⟩ := List.append_of_mem h
    refine main hc.symm hn hm (a ++ l' :: c) d (by rw [hab, hcd]; simp) (by simp)

/-- C56 applies: `part` after `autopart` in `F34`; the message is the one about the conflict. -/
example : ∃ msg, ((readLines Version.F34 [(1, [c!"autopart"], []), (2, [c!"lang", c!"en_US"], [])]).dispatch 3 [c!"part", c!"/", c!"--size=1"] []).2 =
    some (.parse msg (some 3)) :=
  C56_parse_error (m := c!"autopart") (by decide) (.autopart (.inr (by decide)) (by decide)) _ (l := (1, [c!"autopart"], [])) (by simp) rfl 3 _ [] (by decide)

/-- The line alone is accepted. -/
example : ((newHandler Version.F34).dispatch 3 [c!"part", c!"/", c!"--size=1"] []).2 = none := by decide +kernel

/-- Between `F16` and `F19` the check goes one way only: `volgroup` after `autopart` is refused,
`autopart` after `volgroup` is accepted. -/
theorem C56_one_way : ((readLines Version.F19 [(1, [c!"autopart"], [])]).dispatch 2 [c!"volgroup", c!"a", c!"pv.1"] []).2 =
      some (.parse c!"The volgroup and autopart commands can't be used at the same time" (some 2)) ∧
    ((readLines Version.F19 [(1, [c!"volgroup", c!"a", c!"pv.1"], [])]).dispatch 2 [c!"autopart"] []).2 = none := by
  constructor <;> decide +kernel

/-- `resetCommand` undoes this, and more than it should: it is called for `part` and the next line says
`partition`, which is still the old object; `autopart` looks at the new one. -/
theorem C56_after_reset :
    let h := ((newHandler Version.F34).reset c!"part").1
    let h := h.dispatch 1 [c!"partition", c!"/", c!"--size=1"] []
    h.2 = none ∧ (h.1.dispatch 2 [c!"autopart"] []).2 = none := by
  decide +kernel

end Ks
