import Verif.Commands.Session
import Verif.Props.EscapeProps
/-!
# C55: which exceptions a command line can raise

`Session v h`: the handler `h` of version `v` after any calls of its methods.  `Allowed` lists the
exceptions.
-/
namespace Ks

open Cmd

variable {v : Nat} {h : Handler CState Ns}

/-- C55: a command line raises a `KickstartParseError` with the number of the line, or one of the
exceptions listed in `Allowed` for the commands `raid`, `method`, `realm`, `multipath`, `mount` and
`nvdimm`. -/
theorem C55_errors (hv : Supported v) (s : Session v h) (lineno : Nat) (n : Str) (args : List Str) (line : Str) {e : Exc}
    (he : (h.dispatch lineno (n :: args) line).2 = some e) : Allowed v n args lineno e := by
  have inv := session_inv hv s
  have hm := supported_mapOk hv
  cases hl : h.commands.lookup n with
  | none =>
    rw [C48_unknown h lineno n args line hl] at he
    cases he
    exact .parse _
  | some x =>
    cases x with
    | none => rw [C48_masked h lineno n args line hl] at he; cases he
    | some r =>
      obtain ⟨o, ho, hmem⟩ := inv.served n r hl
      rw [dispatch_eq hl ho] at he
      obtain ⟨I, hI⟩ := hm.ok _ hmem
      have hst := hasStorage_setInst ho (o.inst.noted n line lineno) (inv.storage hm)
      refine hI.err _ args (o.inst.noted n line lineno) hst ((inv.objs r o ho).2 I _ hI) e ?_
      simp only at he
      revert he
      generalize (o.cls.parse _ args (o.inst.noted n line lineno)).2 = x
      cases x <;> simp

/-- C55: the commands that can raise something else, as far as they do so in version `v`. -/
def odd (v : Nat) (n : Str) (args : List Str) : Prop :=
  (n = c!"raid" ∧ v < Version.F19) ∨ (n = c!"method" ∧ v < Version.F34) ∨ n = c!"realm" ∨ (n = c!"multipath" ∧ v < Version.F24) ∨
    (n = c!"mount" ∧ c!"--" ∈ args) ∨ n = c!"nvdimm"

instance (v : Nat) (n : Str) (args : List Str) : Decidable (odd v n args) := by unfold odd; infer_instance

/-- C55: every other command raises only `KickstartParseError`, with the number of the line. -/
theorem C55_parse_errors (hv : Supported v) (s : Session v h) (lineno : Nat) (n : Str) (args : List Str) (line : Str)
    (hn : ¬ odd v n args) {e : Exc} (he : (h.dispatch lineno (n :: args) line).2 = some e) : ∃ msg, e = .parse msg (some lineno) := by
  unfold odd at hn
  cases C55_errors hv s lineno n args line he with
  | parse tag => exact ⟨tag, rfl⟩
  | raid h1 h2 => exact absurd (.inl ⟨h1, h2⟩) hn
  | method h1 h2 => exact absurd (.inr (.inl ⟨h1, h2⟩)) hn
  | realm _ h1 => exact absurd (.inr (.inr (.inl h1))) hn
  | multipath h1 h2 => exact absurd (.inr (.inr (.inr (.inl ⟨h1, h2⟩)))) hn
  | mount h1 h2 => exact absurd (.inr (.inr (.inr (.inr (.inl ⟨h1, h2⟩))))) hn
  | nvdimm _ h1 => exact absurd (.inr (.inr (.inr (.inr (.inr h1))))) hn

/-! The exceptions do happen. -/

/-- A device that is not a number. -/
theorem C55_raid_raises :
    ((newHandler Version.F18).dispatch 3 [c!"raid", c!"/", c!"--device=md", c!"--level=1", c!"raid.01", c!"raid.02"] []).2 = some .value := by
  decide +kernel

theorem C55_method_raises : ((newHandler Version.F33).dispatch 3 [c!"method", c!"cdrom"] []).2 = some .type := by decide +kernel

/-- `realm join a # it's` -/
theorem C55_realm_raises :
    ((newHandler Version.F34).dispatch 3 [c!"realm", c!"join", c!"a"] c!"realm join a # it's\n").2 = some (.shlex .noClosingQuotation) := by
  decide +kernel

theorem C55_mount_raises : ((newHandler Version.F34).dispatch 3 [c!"mount", c!"/dev/a", c!"--", c!"--"] []).2 = some .index := by
  decide +kernel

theorem C55_nvdimm_raises : ((newHandler Version.F34).dispatch 3 [c!"nvdimm", c!"use"] []).2 =
    some (.parse c!"Action %(action)s requires --namespace or --blockdevs argument to be set" none) := by
  decide +kernel

/-- The handler after some lines. -/
def Handler.lines (h : Handler CState Ns) (ls : List (List Str)) : Handler CState Ns :=
  ls.foldl (fun h ws => (h.dispatch 1 ws []).1) h

/-- The third path of the second device puts a path among the devices; the next line fails. -/
theorem C55_multipath_raises :
    (((newHandler Version.F23).lines [[c!"multipath", c!"--name=a", c!"--device=x", c!"--rule=r"],
        [c!"multipath", c!"--name=b", c!"--device=y", c!"--rule=r"], [c!"multipath", c!"--name=b", c!"--device=z", c!"--rule=r"]]).dispatch 4
      [c!"multipath", c!"--name=c", c!"--device=w", c!"--rule=r"] []).2 = some .attribute := by
  decide +kernel

/-- C55 applies to handlers that have read lines, and commands do fail as it says. -/
example : Session Version.F34 ((newHandler Version.F34).dispatch 1 [c!"bootloader", c!"--timeout=x"] []).1 ∧ Supported Version.F34 ∧
    ¬ odd Version.F34 c!"bootloader" [c!"--timeout=x"] ∧
    ((newHandler Version.F34).dispatch 1 [c!"bootloader", c!"--timeout=x"] []).2.isSome = true :=
  ⟨.dispatch _ _ _ .new, by decide +kernel, by decide +kernel, by decide +kernel⟩

/-! ## C42 for the handlers of pykickstart -/

section
variable {cfg : Cfg} {w : World} {d : Nat} {s : PState (Handler CState Ns)}

/-- C42, part: whatever the files contain, reading them with a handler of version `v` lets nothing
escape but `KickstartError`s, `ValueError` from splitting a line into words, `IndexError`,
`RecursionError` and, for old versions, `ValueError`, `TypeError` and `AttributeError`. -/
theorem C42_handlers_escape_partial (hv : Supported v) (hs : Session v s.cmds)
    (hload : ∀ f e, w.load f = .error e → e.isKickstartError = true) :
    (∀ text e, (readString cfg w Handler.dispatch d text s).2 = some e →
      e.isKickstartError = true ∨ (∃ x, e = .shlex x) ∨ e = .index ∨ e = .recursion ∨
      (e = .value ∧ v < Version.F19) ∨ (e = .type ∧ v < Version.F34) ∨ (e = .attribute ∧ v < Version.F24)) ∧
    (∀ f e, (readKickstart cfg w Handler.dispatch d f s).2 = some e →
      e.isKickstartError = true ∨ (∃ x, e = .shlex x) ∨ e = .index ∨ e = .recursion ∨
      (e = .value ∧ v < Version.F19) ∨ (e = .type ∧ v < Version.F34) ∨ (e = .attribute ∧ v < Version.F24)) := by
  have hline : ∀ l, LineOk (fun e => e.isKickstartError = true ∨ (∃ x, e = .shlex x) ∨ e = .index ∨ e = .recursion ∨
      (e = .value ∧ v < Version.F19) ∨ (e = .type ∧ v < Version.F34) ∨ (e = .attribute ∧ v < Version.F24)) (Session v) Handler.dispatch l := by
    refine escapes_line (fun e h => by rcases h with h | h | h <;> simp [h]) (fun n ws l c e hq h => ?_)
    cases ws with
    | nil => cases h; exact .inr (.inr (.inl rfl))
    | cons w ws =>
      cases C55_errors hv hq n w ws l h with
      | parse tag => exact .inl rfl
      | raid h1 h2 => simp [h2]
      | method h1 h2 => simp [h2]
      | realm _ h1 => simp
      | multipath h1 h2 => simp [h2]
      | mount h1 h2 => simp
      | nvdimm _ h1 => exact .inl rfl
  have h := reading_fine (cfg := cfg) (d := d) (s := s) (w := w) (disp := Handler.dispatch) (fun e h => .inl h) (.inr (.inr (.inr (.inl rfl))))
    (fun n ws l c hq => Session.dispatch n ws l hq) (fun f e h => .inl (hload f e h)) (fun _ _ _ l _ => hline l) hs
  exact ⟨fun text => h.1 text fun l _ => hline l, h.2⟩

/-- Lines whose command is none of those that raise other exceptions. -/
def PlainCommand (v : Nat) (l : Str) : Prop := ∀ n args, shlexSplit l true = .ok (n :: args) →
  ¬ ((n = c!"raid" ∧ v < Version.F19) ∨ (n = c!"method" ∧ v < Version.F34) ∨ n = c!"realm" ∨ (n = c!"multipath" ∧ v < Version.F24) ∨
    (n = c!"mount" ∧ c!"--" ∈ args))

/-- C42, part: with a handler of version `v`, only `KickstartError`s escape (and `RecursionError`) if
every line of every file is sound and its command is none of those listed. -/
theorem C42_handlers_only_kickstart_errors_partial (hv : Supported v) (hs : Session v s.cmds)
    (hload : ∀ f e, w.load f = .error e → e.isKickstartError = true)
    (hlines : ∀ f t, w.load f = .ok t → ∀ l ∈ splitLines t, SoundLine l ∧ PlainCommand v l) :
    (∀ text, (∀ l ∈ splitLines text, SoundLine l ∧ PlainCommand v l) →
      ∀ e, (readString cfg w Handler.dispatch d text s).2 = some e → e.isKickstartError = true ∨ e = .recursion) ∧
    (∀ f e, (readKickstart cfg w Handler.dispatch d f s).2 = some e → e.isKickstartError = true ∨ e = .recursion) := by
  have hline : ∀ l, SoundLine l ∧ PlainCommand v l → LineOk (fun e => e.isKickstartError = true ∨ e = .recursion) (Session v) Handler.dispatch l := by
    intro l hl
    refine sound_line (fun e h => .inl h) hl.1 fun hb n ws c e hq hw h => ?_
    obtain ⟨x, xs, hw', _⟩ := hl.1.words hb
    rw [hw] at hw'
    cases hw'
    have hp := hl.2 x xs hw
    cases C55_errors hv hq n x xs l h with
    | parse tag => exact .inl rfl
    | raid h1 h2 => exact absurd (.inl ⟨h1, h2⟩) hp
    | method h1 h2 => exact absurd (.inr (.inl ⟨h1, h2⟩)) hp
    | realm _ h1 => exact absurd (.inr (.inr (.inl h1))) hp
    | multipath h1 h2 => exact absurd (.inr (.inr (.inr (.inl ⟨h1, h2⟩)))) hp
    | mount h1 h2 => exact absurd (.inr (.inr (.inr (.inr ⟨h1, h2⟩)))) hp
    | nvdimm _ h1 => exact .inl rfl
  have h := reading_fine (cfg := cfg) (d := d) (s := s) (w := w) (disp := Handler.dispatch) (fun e h => .inl h) (.inr rfl)
    (fun n ws l c hq => Session.dispatch n ws l hq) (fun f e h => .inl (hload f e h)) (fun f t ht l hl => hline l (hlines f t ht l hl)) hs
  exact ⟨fun text ht => h.1 text fun l hl => hline l (ht l hl), h.2⟩

end

/-- A file that the handler of F34 reads, up to an error. -/
example : (readString { version := Version.F34 } sampleWorld Handler.dispatch 2 c!"lang en_US\nrootpw\n" { cmds := newHandler Version.F34 }).2 =
    some (.parse c!"A single argument is expected for the %s command" (some 2)) := by
  decide +kernel

end Ks
