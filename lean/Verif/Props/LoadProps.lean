import Verif.Load
import Verif.Props.EscapeProps
/-!
# C69: loading files and URLs

Specification: a location is a URL when it contains `://`; the text of a file is the text whose UTF-8
encoding the file holds.
-/
namespace Ks
variable {d : Disk} {n : Net} {f dest : Str}

theorem isUrl_iff (s : Str) : isUrl s = true ↔ ∃ a b, s = a ++ c!"://" ++ b := by
  induction s with
  | nil => simp [isUrl]
  | cons c t ih =>
    rw [isUrl, Bool.or_eq_true, ih, startsWith, List.isPrefixOf_iff_prefix]
    constructor
    · rintro (⟨b, hb⟩ | ⟨a, b, rfl⟩)
      · exact ⟨[], b, by rw [← hb]; rfl⟩
      · exact ⟨c :: a, b, rfl⟩
    · rintro ⟨a, b, h⟩
      cases a with
      | nil => exact .inl ⟨b, by rw [h]; rfl⟩
      | cons x a =>
        injection h with h1 h2
        exact .inr ⟨a, b, h2⟩

theorem decode_iff (b : ByteArray) (s : Str) : (∃ a, b.utf8Decode? = some a ∧ a.toList = s) ↔ b = s.utf8Encode := by
  constructor
  · rintro ⟨a, h, rfl⟩
    have hv : b.IsValidUTF8 := ByteArray.isSome_utf8Decode?_iff.1 (by rw [h]; rfl)
    obtain ⟨l, rfl⟩ := hv
    rw [List.utf8Decode?_utf8Encode] at h
    cases h
    simp
  · rintro rfl
    exact ⟨s.toArray, List.utf8Decode?_utf8Encode, by simp⟩

/-- C69: a location that does not contain `://` is a file, and `load_to_str` returns a text exactly when
the file can be read and holds the UTF-8 encoding of this text: nothing is translated, not even line
ends. (`open` refuses names with a NUL character.) -/
theorem C69_file_text (hu : ¬ ∃ a b, f = a ++ c!"://" ++ b) (h0 : '\x00' ∉ f) (s : Str) :
    loadToStr d n f = .ok s ↔ d.file f = some s.utf8Encode := by
  rw [loadToStr, if_neg (by rwa [isUrl_iff]), loadFile, if_neg h0]
  cases hf : d.file f with
  | none => simp
  | some b =>
    rw [Option.some.injEq, ← decode_iff]
    simp only
    generalize b.utf8Decode? = o
    cases o with
    | none => simp
    | some a => simp

/-- C69: a file that cannot be opened gives a `KickstartError`; one that holds something that is not
UTF-8 gives a `UnicodeDecodeError`, and there is no other failure. -/
theorem C69_file_errors (hu : ¬ ∃ a b, f = a ++ c!"://" ++ b) (h0 : '\x00' ∉ f) :
    ((∃ e, loadToStr d n f = .error e ∧ e.isKickstartError = true) ↔ d.file f = none) ∧
    (loadToStr d n f = .error .unicode ↔ ∃ b, d.file f = some b ∧ ∀ s : Str, b ≠ s.utf8Encode) ∧
    ∀ e, loadToStr d n f = .error e → e.isKickstartError = true ∨ e = .unicode := by
  rw [loadToStr, if_neg (by rwa [isUrl_iff]), loadFile, if_neg h0]
  cases hf : d.file f with
  | none => simp [Exc.isKickstartError]
  | some b =>
    cases hd : b.utf8Decode? with
    | none =>
      have : ∀ s : Str, b ≠ s.utf8Encode := fun s hs => by
        obtain ⟨a, ha, -⟩ := (decode_iff b s).2 hs
        rw [hd] at ha; cases ha
      simp only [hd]
      simpa [Exc.isKickstartError] using this
    | some a =>
      have : b = (a.toList).utf8Encode := (decode_iff b _).1 ⟨a, hd, rfl⟩
      simp only [hd, Option.some.injEq, exists_eq_left', reduceCtorEq, false_and, exists_false, false_iff, not_forall, not_not, false_implies, implies_true, and_true, not_false_eq_true, true_and]
      exact ⟨_, this⟩

/-- C69: for a URL the text is what the server answers with status 200, and every failure is a
`KickstartError`. The files are not looked at. -/
theorem C69_url (hu : ∃ a b, f = a ++ c!"://" ++ b) :
    (∀ s, loadToStr d n f = .ok s ↔ n f = .answer 200 s) ∧
    (∀ e, loadToStr d n f = .error e → e.isKickstartError = true) ∧ ∀ d', loadToStr d' n f = loadToStr d n f := by
  have hu := (isUrl_iff f).2 hu
  refine ⟨fun s => ?_, fun e he => ?_, fun d' => by simp [loadToStr, hu]⟩
  · rw [loadToStr, if_pos hu, loadUrl]
    cases n f with
    | ssl => simp
    | failed => simp
    | answer k t =>
      by_cases hk : k = 200
      · subst hk; simp
      · simp [hk]
  · rw [loadToStr, if_pos hu, loadUrl] at he
    cases hn : n f with
    | ssl => rw [hn] at he; cases he; rfl
    | failed => rw [hn] at he; cases he; rfl
    | answer k t =>
      rw [hn] at he
      simp only at he
      split at he
      · cases he; rfl
      · cases he

/-- C69: after `load_to_file` the destination, read as a file, has the text of the location, or the same
failure to be UTF-8; every file that is not the destination is as it was. -/
theorem C69_to_file (h : (loadToFile d n f dest).2 = none) (hd : ¬ ∃ a b, dest = a ++ c!"://" ++ b) (n' : Net) :
    loadToStr (loadToFile d n f dest).1 n' dest = loadToStr d n f ∧
    ∀ g, g ≠ dest → d.same g dest = false → (loadToFile d n f dest).1.file g = d.file g := by
  have hd : isUrl dest = false := by rw [← Bool.not_eq_true, isUrl_iff]; exact hd
  have hw : ∀ b : ByteArray, ∀ g, g ≠ dest → d.same g dest = false → (d.write dest b).file g = d.file g := by
    intro b g h1 h2
    simp [Disk.write, h1, h2]
  unfold loadToFile at h ⊢
  split at h
  · rename_i hu
    rw [if_pos hu, loadToStr, if_neg (by simp [hd]), loadToStr, if_pos hu]
    cases hl : loadUrl n f with
    | error e => rw [hl] at h; simp at h
    | ok text =>
      rw [hl] at h
      simp only at h ⊢
      split at h
      · simp at h
      · rename_i h0
        split at h
        · rename_i hwr
          rw [if_neg h0, if_pos hwr]
          refine ⟨?_, hw _⟩
          simp only [loadFile, h0, Disk.write, if_false, true_or, if_true, List.utf8Decode?_utf8Encode]
        · simp at h
  · rename_i hu
    rw [if_neg hu, loadToStr, if_neg (by simp [hd]), loadToStr, if_neg hu]
    unfold copyFile at h ⊢
    split at h
    · simp at h
    · rename_i h0
      simp only [not_or] at h0
      split at h
      · simp at h
      · rename_i hs
        cases hf : d.file f with
        | none => rw [hf] at h; simp at h
        | some b =>
          rw [hf] at h
          simp only at h
          split at h
          · rename_i hwr
            rw [if_neg (by simp [h0]), if_neg hs]
            simp only [hwr, if_true]
            refine ⟨?_, hw b⟩
            simp only [loadFile, h0, if_false, Disk.write, true_or, if_true, hf]
          · simp at h

/-- C69: when `load_to_file` fails, no file is changed, and the exception is a `KickstartError` unless a
name contains a NUL character. -/
theorem C69_to_file_fails {e : Exc} (h : (loadToFile d n f dest).2 = some e) :
    (loadToFile d n f dest).1 = d ∧ ('\x00' ∉ f → '\x00' ∉ dest → e.isKickstartError = true) := by
  unfold loadToFile at h ⊢
  split at h
  · rename_i hu
    rw [if_pos hu]
    cases hl : loadUrl n f with
    | error e' =>
      rw [hl] at h
      simp only [Option.some.injEq] at h
      subst h
      refine ⟨rfl, fun _ _ => ?_⟩
      have := (C69_url (d := d) (n := n) ((isUrl_iff f).1 hu)).2.1 e'
      rw [loadToStr, if_pos hu] at this
      exact this hl
    | ok text =>
      rw [hl] at h
      simp only at h ⊢
      split at h
      · rename_i h0
        rw [if_pos h0]
        exact ⟨rfl, fun _ h1 => absurd h0 h1⟩
      · rename_i h0
        rw [if_neg h0]
        split at h
        · simp at h
        · rename_i hwr
          rw [if_neg hwr]
          cases h
          exact ⟨rfl, fun _ _ => rfl⟩
  · rename_i hu
    rw [if_neg hu]
    unfold copyFile at h ⊢
    split at h
    · rename_i h0
      rw [if_pos h0]
      refine ⟨rfl, fun h1 h2 => ?_⟩
      rcases h0 with h0 | h0
      · exact absurd h0 h1
      · exact absurd h0 h2
    · rename_i h0
      rw [if_neg h0]
      split at h
      · rename_i hs
        rw [if_pos hs]
        cases h
        exact ⟨rfl, fun _ _ => rfl⟩
      · rename_i hs
        rw [if_neg hs]
        cases hf : d.file f with
        | none => rw [hf] at h; cases h; exact ⟨rfl, fun _ _ => rfl⟩
        | some b =>
          rw [hf] at h
          simp only at h ⊢
          split at h
          · simp at h
          · rename_i hwr
            rw [if_neg hwr]
            cases h
            exact ⟨rfl, fun _ _ => rfl⟩

/-- C69: a kickstart file that is not UTF-8 is not refused with a `KickstartError`: reading it raises
`UnicodeDecodeError`, in every configuration of the parser. -/
theorem C69_not_utf8_escapes {C : Type} {cfg : Cfg} {disp : Disp C} {s : PState C} {cwd : Str} {exist : Str → Bool} {depth : Nat}
    (hu : ¬ ∃ a b, f = a ++ c!"://" ++ b) (h0 : '\x00' ∉ f) {b : ByteArray} (hf : d.file f = some b) (hb : ∀ s : Str, b ≠ s.utf8Encode) :
    (readKickstart cfg (worldOf d n cwd exist) disp (depth + 1) f s).2 = some .unicode := by
  have hl : loadToStr d n f = .error .unicode := (C69_file_errors hu h0).2.1.2 ⟨b, hf, hb⟩
  have hr : resolvePath (worldOf d n cwd exist) s.reset f = f := by
    simp [resolvePath, PState.reset]
  simp only [readKickstart, readFile, hr]
  rw [show (worldOf d n cwd exist).load f = .error .unicode from hl]
  simp [Exc.isKickstartError]

/-! ### The hypotheses can be met -/

/-- A disk with one file. -/
def singleFile (f : Str) (b : ByteArray) : Disk := { file := fun g => if g = f then some b else none, writable := fun _ => true, same := fun _ _ => false }

def noNet : Net := fun _ => .failed

/-- A file with a carriage return and a letter outside ASCII is read as it is. -/
example : loadToStr (singleFile c!"ks.cfg" (c!"lang é\r\n" : Str).utf8Encode) noNet c!"ks.cfg" = .ok c!"lang é\r\n" := by
  rw [C69_file_text (by rw [← isUrl_iff]; decide) (by decide)]
  simp [singleFile]

/-- The byte 255 is not UTF-8. -/
theorem not_utf8 (s : Str) : (⟨#[255]⟩ : ByteArray) ≠ s.utf8Encode := by
  intro h
  have h1 : (⟨#[255]⟩ : ByteArray).utf8Decode? = some s.toArray := by rw [h]; exact List.utf8Decode?_utf8Encode
  have h2 : (⟨#[255]⟩ : ByteArray).utf8Decode? = none := by decide +kernel
  rw [h2] at h1
  cases h1

example : loadToStr (singleFile c!"ks.cfg" ⟨#[255]⟩) noNet c!"ks.cfg" = .error .unicode :=
  (C69_file_errors (by rw [← isUrl_iff]; decide) (by decide)).2.1.2 ⟨_, by simp [singleFile], not_utf8⟩

/-- A URL is copied to a file. -/
example : (loadToFile (singleFile c!"a" ⟨#[255]⟩) (fun _ => .answer 200 c!"text\n") c!"http://host/ks.cfg" c!"/tmp/x").2 = none ∧
    (loadToFile (singleFile c!"a" ⟨#[255]⟩) noNet c!"a" c!"/tmp/x").2 = none ∧
    (loadToFile (singleFile c!"a" ⟨#[255]⟩) noNet c!"b" c!"/tmp/x").2 = some (.ks c!"Error copying file" none) := by decide +kernel

end Ks
