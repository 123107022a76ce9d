import Verif.Commands.FixedTexts
import Verif.Props.KeepProps
/-!
# C77: commands whose text is one of a few, and read again as it is, whatever was read before
-/
namespace Ks

open Cmd

/-! ## The specification is the table `fixedTexts` (`Verif/Commands/FixedTexts.lean`) -/

theorem fixed_names {v : Nat} {n : Str} {ts : List Str} (h : fixedTextsOf v n = some ts) : n ∈ fixedTexts.flatMap (·.names) := by
  obtain ⟨x, hx, -⟩ := Option.map_eq_some_iff.1 h
  have := List.find?_some hx
  simp only [Bool.and_eq_true, List.contains_eq_mem, decide_eq_true_eq] at this
  exact List.mem_flatMap.2 ⟨x, List.mem_of_find?_eq_some hx, this.1⟩

theorem fixed_rows : fixedTexts.all (fun x => x.texts.contains [] && x.names.all fun n => [c!"autostep", c!"cdrom", c!"cmdline", c!"graphical", c!"text", c!"eula", c!"firstboot", c!"hmc", c!"interactive",
    c!"lilocheck", c!"mediacheck", c!"reboot", c!"halt", c!"poweroff", c!"shutdown", c!"skipx", c!"unsupported_hardware", c!"install", c!"upgrade", c!"zerombr"].contains n) = true := by decide +kernel

theorem fixed_nil {v : Nat} {n : Str} {ts : List Str} (h : fixedTextsOf v n = some ts) : [] ∈ ts := by
  obtain ⟨x, hx, rfl⟩ := Option.map_eq_some_iff.1 h
  have := List.all_eq_true.1 fixed_rows x (List.mem_of_find?_eq_some hx)
  simp only [Bool.and_eq_true, List.contains_eq_mem, decide_eq_true_eq] at this
  exact this.1

theorem fixed_writes {v : Nat} (hv : Supported v) {n : Str} {c : Command} (hc : (commandMap v).lookup n = some c) {ts : List Str} (h : fixedTextsOf v n = some ts) : c.WritesAmong ts := by
  obtain ⟨x, hx, hn⟩ := List.mem_flatMap.1 (fixed_names h)
  have := List.all_eq_true.1 fixed_rows x hx
  simp only [Bool.and_eq_true, List.all_eq_true] at this
  have := this.2 n hn
  exact writes_all n (by simpa only [List.contains_eq_mem, decide_eq_true_eq] using this) _ (supported_mem hv) c hc ts h

/-- C77: after any lines, accepted or refused, the text of a command of the table is one of the texts listed there. -/
theorem C77_texts {v : Nat} (hv : Supported v) {h : Handler CState Ns} (s : Session v h) {n : Str} {ts : List Str} (ht : fixedTextsOf v n = some ts) : textOf h n ∈ ts := by
  unfold textOf objectOf
  split
  · rename_i o ho
    split at ho
    · rename_i r hlk
      obtain ⟨o', ho', hmem⟩ := (session_inv hv s).served n r hlk
      rw [ho] at ho'; cases ho'
      exact fixed_writes hv ((mem_iff_lookup (supported_mapOk hv).dict).1 hmem) ht _
    · cases ho
  · exact fixed_nil ht

/-- Each text of the table is stable. -/
theorem fixed_stable : commandMaps.all (fun y => y.2.all fun x =>
    match fixedTextsOf y.1 x.1 with
    | none => true
    | some ts => (looksAt (attrName x.2.name)).isEmpty && ts.all fun text =>
      decide (text = [] ∨ text.getLast? = some '\n') && (lineItems text).all (fun it => decide (PlainOwn y.1 x.1 it)) &&
      decide ((runClass x.2 (fun _ => none) 0 (lineItems text) x.2.new.inst).map x.2.str = some text)) = true := by decide +kernel

/-- C77: the text of a command of the table is stable in every session. -/
theorem C77_stable {v : Nat} (hv : Supported v) {n : Str} {c : Command} (hc : (commandMap v).lookup n = some c) {h : Handler CState Ns} (s : Session v h)
    (ht : (fixedTextsOf v n).isSome) : StableText v n (textOf h n) := by
  obtain ⟨ts, ht⟩ := Option.isSome_iff_exists.1 ht
  have hm := C77_texts hv s ht
  have := List.all_eq_true.1 (List.all_eq_true.1 fixed_stable _ (supported_mem hv)) _ (mem_of_lookup' hc)
  simp only [ht, Bool.and_eq_true, List.isEmpty_iff] at this
  have h2 := List.all_eq_true.1 this.2 _ hm
  simp only [Bool.and_eq_true, decide_eq_true_eq, List.all_eq_true] at h2
  obtain ⟨⟨h3, h4⟩, h5⟩ := h2
  obtain ⟨i, hi, htx⟩ := Option.map_eq_some_iff.1 h5
  exact stable_of_class hv hc (t := fun _ => none) (fun a ha => by rw [this.1] at ha; cases ha) h3 h4 hi htx

/-- C77: `C76_file` for files that also use the commands of the table, however often and with whatever mistakes. -/
theorem C77_file {v : Nat} (hv : Supported v) (hl : v ∉ liloVersions) (ls : List (Nat × List Str × Str))
    (hst : ∀ n c, (commandMap v).lookup n = some c → c.prio ≠ none → ¬ Unread (readLines v ls) n → fixedTextsOf v n = none →
      (ListCommand v n ∧ n ∈ lossless.map (·.1) ∧ ∀ d ∈ dataOf (readLines v ls) n, WritesAll v n d ∧ OneLine v n d) ∨
      (OneLineOf v ls n ∧ KeepsAll v n (attrsOf (readLines v ls) n) ∧ OneCommand (textOf (readLines v ls) n)) ∨ StableText v n (textOf (readLines v ls) n))
    (hR : ∀ n, textOf (readLines v ls) n ≠ [] → ∀ a ∈ rivals n, textOf (readLines v ls) a = []) (k : Nat) :
    let r := runCommands Handler.dispatch k (lineItems (readLines v ls).str) (newHandler v)
    r.2 = none ∧ r.1.str = (readLines v ls).str := by
  refine C76_file hv hl ls (fun n c hc hp hu => ?_) hR k
  cases ht : fixedTextsOf v n with
  | none => exact hst n c hc hp hu ht
  | some ts => exact .inr (.inr (C77_stable hv hc (readLines_session v ls) (by rw [ht]; rfl)))

/-! ### The hypotheses can be met -/

/-- Texts of the table that are written after one or two lines. -/
def fixedLines : List (Nat × List (List Str) × Str × Str) :=
  [(Version.F10, [[c!"autostep", c!"--autoscreenshot"]], c!"autostep", c!"autostep --autoscreenshot\n"),
   (Version.F34, [[c!"cdrom"]], c!"cdrom", c!"# Use CDROM installation media\ncdrom\n"),
   (Version.F25, [[c!"text"], [c!"cmdline"]], c!"graphical", c!"cmdline\n"),
   (Version.F34, [[c!"eula", c!"--agreed"]], c!"eula", c!"# License agreement\neula --agreed\n"),
   (Version.F34, [[c!"firstboot", c!"--reconfig"], [c!"firstboot", c!"--bogus"]], c!"firstboot", c!"# Run the Setup Agent on first boot\nfirstboot --reconfig\n"),
   (Version.F34, [[c!"reboot"], [c!"halt", c!"--eject"]], c!"reboot", c!"# Halt after installation\nhalt --eject\n"),
   (Version.F34, [[c!"poweroff", c!"--kexec"]], c!"halt", c!"# Shutdown after installation\nshutdown --kexec\n"),
   (Version.F34, [[c!"skipx"], [c!"skipx"]], c!"skipx", c!"# Do not configure the X Window System\nskipx\n"),
   (Version.FC3, [[c!"upgrade"], [c!"install"]], c!"upgrade", c!"# Install OS instead of upgrade\ninstall\n"),
   (Version.F34, [[c!"zerombr"]], c!"zerombr", c!"# Clear the Master Boot Record\nzerombr\n")]

theorem fixedLines_all : fixedLines.all (fun p => (fixedTextsOf p.1 p.2.2.1).isSome &&
    decide (textOf (readLines p.1 (p.2.1.map fun l => (1, l, []))) p.2.2.1 = p.2.2.2)) = true := by decide +kernel

/-- From F26 on, `cmdline` stores the option before it refuses it; who goes on after the exception writes a line that is refused
(/repo/pykickstart/commands/displaymode.py:104-111). -/
theorem C77_refused :
    let l := [c!"cmdline", c!"--non-interactive"]
    let h := readLines Version.F34 [(1, l, [])]
    ((newHandler Version.F34).dispatch 1 l []).2 ≠ none ∧ textOf h c!"cmdline" = c!"cmdline --non-interactive\n" ∧ ¬ StableText Version.F34 c!"cmdline" (textOf h c!"cmdline") := by decide +kernel

end Ks
