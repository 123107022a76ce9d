import Verif.Version
import Verif.PyStrLemmas
/-!
# C01-C04: version names (`/repo/pykickstart/version.py`)
-/
namespace Ks
namespace Version

/-! ## Specification -/

/-- The releases the library documents, with their internal numbers: Fedora Core 3-6,
Fedora 7-34 and RHEL 3-8.  Written out independently of `versionMap`. -/
def releases : List (Str × Nat) :=
  [(c!"FC3", 1000), (c!"FC4", 2000), (c!"FC5", 3000), (c!"FC6", 4000)] ++
  (List.range 23).map (fun i => (c!"F" ++ natDigits (7 + i), 1000 * (5 + i))) ++
  (List.range 5).map (fun i => (c!"F" ++ natDigits (30 + i), 1000 * (30 + i))) ++
  [(c!"RHEL3", 900), (c!"RHEL4", 1100), (c!"RHEL5", 4100), (c!"RHEL6", 11100),
   (c!"RHEL7", 19100), (c!"RHEL8", 26100)]

/-- `v` is a supported version constant. -/
def Supported (v : Int) : Prop := ∃ r ∈ releases, v = (r.2 : Int)

/-! ## Helper lemmas -/

theorem toNat_ofNat_small {n : Nat} (h : n < 128) : (Char.ofNat n).toNat = n := by
  have hv : n.isValidChar := Or.inl (by omega)
  simp only [Char.ofNat, hv, dif_pos]
  simp [Char.toNat, Char.ofNatAux]

theorem char_ext {a b : Char} (h : a.toNat = b.toNat) : a = b := by
  apply Char.ext
  apply UInt32.toNat_inj.1
  exact h

theorem lowerC_toNat (c : Char) :
    (lowerC c).toNat = if 65 ≤ c.toNat ∧ c.toNat ≤ 90 then c.toNat + 32 else c.toNat := by
  unfold lowerC
  have hA : 'A'.toNat = 65 := rfl
  have hZ : 'Z'.toNat = 90 := rfl
  rw [hA, hZ]
  split
  · exact toNat_ofNat_small (by omega)
  · rfl

theorem upperC_toNat (c : Char) :
    (upperC c).toNat = if 97 ≤ c.toNat ∧ c.toNat ≤ 122 then c.toNat - 32 else c.toNat := by
  unfold upperC
  have hA : 'a'.toNat = 97 := rfl
  have hZ : 'z'.toNat = 122 := rfl
  rw [hA, hZ]
  split
  · exact toNat_ofNat_small (by omega)
  · rfl

theorem lowerC_upperC (c : Char) : lowerC (upperC c) = lowerC c := by
  apply char_ext
  simp only [lowerC_toNat, upperC_toNat]
  split <;> split <;> (try split) <;> omega

theorem upperC_lowerC (c : Char) : upperC (lowerC c) = upperC c := by
  apply char_ext
  simp only [lowerC_toNat, upperC_toNat]
  split <;> split <;> (try split) <;> omega

theorem upperC_upperC (c : Char) : upperC (upperC c) = upperC c := by
  apply char_ext
  simp only [upperC_toNat]
  split <;> (try split) <;> omega

theorem lower_upper (s : Str) : lower (upper s) = lower s := by
  simp [lower, upper, Function.comp_def, lowerC_upperC]

theorem upper_lower (s : Str) : upper (lower s) = upper s := by
  simp [lower, upper, Function.comp_def, upperC_lowerC]

theorem mem_of_lookup {k : Str} {v : Nat} {l : List (Str × Nat)} (h : l.lookup k = some v) :
    (k, v) ∈ l := by
  induction l with
  | nil => simp at h
  | cons p t ih =>
    obtain ⟨a, b⟩ := p
    rw [List.lookup_cons] at h
    split at h
    · rename_i he
      have : k = a := by simpa using he
      injection h with h
      subst h; subst this; simp
    · exact List.mem_cons_of_mem _ (ih h)

theorem mapGet_iff (k : Str) (v : Nat) : mapGet k = some v ↔ (k, v) ∈ versionMap := by
  constructor
  · exact mem_of_lookup
  · intro h
    have : ∀ p ∈ versionMap, mapGet p.1 = some p.2 := by decide +kernel
    exact this _ h

theorem findName_mem {v : Int} {k : Str} {l : List (Str × Nat)} (h : findName v l = some k) :
    ∃ n : Nat, (k, n) ∈ l ∧ (n : Int) = v ∧ k ≠ c!"DEVEL" := by
  induction l with
  | nil => simp [findName] at h
  | cons p t ih =>
    obtain ⟨a, b⟩ := p
    simp only [findName] at h
    split at h
    · obtain ⟨n, h1, h2⟩ := ih h
      exact ⟨n, by simp [h1], h2⟩
    · split at h
      · injection h with h
        subst h
        exact ⟨b, by simp, by assumption, by assumption⟩
      · obtain ⟨n, h1, h2⟩ := ih h
        exact ⟨n, by simp [h1], h2⟩

theorem versionToString_ok {v : Int} {skip : Bool} {k : Str} (h : versionToString v skip = .ok k) :
    ∃ n : Nat, (k, n) ∈ versionMap ∧ (n : Int) = v := by
  unfold versionToString at h
  split at h
  · rename_i hd
    injection h with h
    subst h
    exact ⟨DEVEL, by decide, hd.2.symm⟩
  · split at h
    · rename_i k' hk
      injection h with h
      subst h
      obtain ⟨n, h1, h2, _⟩ := findName_mem hk
      exact ⟨n, h1, h2⟩
    · cases h

theorem upper_of_map : ∀ p ∈ versionMap, upper p.1 = p.1 := by decide +kernel

/-! ## C01 -/

/-- C01 (first half): whatever name `versionToString` gives for `v`, reading that name back in
any letter case gives `v`. -/
theorem C01_string_roundtrip (v : Int) (skipDevel : Bool) (name s : Str)
    (h : versionToString v skipDevel = .ok name) (hs : upper s = upper name) :
    ∃ n : Nat, stringToVersion s = .ok n ∧ (n : Int) = v := by
  obtain ⟨n, hn, hv⟩ := versionToString_ok h
  refine ⟨n, ?_, hv⟩
  unfold stringToVersion
  have : upper s = name := by rw [hs]; exact upper_of_map _ hn
  rw [this, (mapGet_iff name n).2 hn]

example : versionToString 34000 false = .ok c!"DEVEL" ∧ versionToString 34000 true = .ok c!"F34"
    ∧ upper c!"rHeL7" = upper c!"RHEL7" ∧ versionToString 19100 false = .ok c!"RHEL7" := by
  decide +kernel

/-- C01: `versionToString` names exactly the documented releases. -/
theorem C01_versionToString_releases (r : Str × Nat) (h : r ∈ releases) :
    versionToString r.2 true = .ok r.1 ∧
    versionToString r.2 false = .ok (if r.2 = 34000 then c!"DEVEL" else r.1) := by
  have : ∀ r ∈ releases, versionToString r.2 true = .ok r.1 ∧
    versionToString r.2 false = .ok (if r.2 = 34000 then c!"DEVEL" else r.1) := by decide +kernel
  exact this r h

/-- C01: every integer that is not a supported constant is refused with
`KickstartVersionError`, and every supported one is accepted. -/
theorem C01_supported_iff (v : Int) (skipDevel : Bool) :
    (Supported v → ∃ name, versionToString v skipDevel = .ok name) ∧
    (¬ Supported v → ∃ tag, versionToString v skipDevel = .error (.version tag)) := by
  constructor
  · rintro ⟨r, hr, rfl⟩
    have := C01_versionToString_releases r hr
    cases skipDevel
    · exact ⟨_, this.2⟩
    · exact ⟨_, this.1⟩
  · intro hn
    cases h : versionToString v skipDevel with
    | ok k =>
      exfalso
      obtain ⟨n, hk, hv⟩ := versionToString_ok h
      have : ∀ p ∈ versionMap, p.2 ∈ releases.map (·.2) := by decide +kernel
      obtain ⟨r, hr, hr'⟩ := List.mem_map.1 (this _ hk)
      exact hn ⟨r, hr, by rw [← hv, hr']⟩
    | error e =>
      unfold versionToString at h
      split at h
      · cases h
      · split at h
        · cases h
        · injection h with h
          subst h
          exact ⟨_, rfl⟩

example : Supported 26100 ∧ ¬ Supported 28000 := by
  refine ⟨⟨(c!"RHEL8", 26100), by decide, rfl⟩, ?_⟩
  rintro ⟨r, hr, h⟩
  have : ∀ r ∈ releases, r.2 ≠ 28000 := by decide +kernel
  exact this r hr (by omega)

/-- C01: distinct constants have distinct names. -/
theorem C01_names_distinct (v w : Int) (skip skip' : Bool) (name : Str)
    (hv : versionToString v skip = .ok name) (hw : versionToString w skip' = .ok name) : v = w := by
  obtain ⟨n, h1, h2⟩ := C01_string_roundtrip v skip name name hv rfl
  obtain ⟨m, h3, h4⟩ := C01_string_roundtrip w skip' name name hw rfl
  rw [h1] at h3
  injection h3 with h3
  rw [← h2, ← h4, h3]

/-! ## C02 -/

/-- The strings that name version `v`: a short name in any letter case. -/
def ShortName (s : Str) (v : Nat) : Prop := (upper s, v) ∈ versionMap

/-- A line feed or nothing (`$` in the regular expressions). -/
def OptNl (s : Str) : Prop := s = [] ∨ s = c!"\n"

/-- `fedora<anything on the line> N` -/
def FedoraName (s : Str) (v : Nat) : Prop :=
  ∃ fed mid d nl, s = fed ++ mid ++ c!" " ++ d ++ nl ∧ lower fed = c!"fedora" ∧ '\n' ∉ mid ∧
    d ≠ [] ∧ (∀ c ∈ d, isDigit c = true) ∧ OptNl nl ∧
    ((c!"FC" ++ d, v) ∈ versionMap ∨ (c!"F" ++ d, v) ∈ versionMap)

/-- `red hat enterprise linux<anything on the line> N<dots and digits>` -/
def RhelName (s : Str) (v : Nat) : Prop :=
  ∃ rh mid d minor nl, s = rh ++ mid ++ c!" " ++ d ++ minor ++ nl ∧
    lower rh = c!"red hat enterprise linux" ∧ '\n' ∉ mid ∧
    d ≠ [] ∧ (∀ c ∈ d, isDigit c = true) ∧ (minor = [] ∨ minor.head? = some '.') ∧
    (∀ c ∈ minor, isDigit c = true ∨ c = '.') ∧ OptNl nl ∧ (c!"RHEL" ++ d, v) ∈ versionMap

theorem lower_length (s : Str) : (lower s).length = s.length := by simp [lower]

theorem lower_append (a b : Str) : lower (a ++ b) = lower a ++ lower b := by simp [lower]

theorem dropFinalNl_spec (s : Str) : ∃ nl, s = dropFinalNl s ++ nl ∧ OptNl nl ∧
    (nl = [] → ¬ endsWith s c!"\n" = true) := by
  unfold dropFinalNl
  split
  · rename_i h
    obtain ⟨t, rfl⟩ := endsWith_iff.1 h
    exact ⟨c!"\n", by simp, Or.inr rfl, by simp⟩
  · exact ⟨[], by simp, Or.inl rfl, fun _ => by assumption⟩

theorem dropFinalNl_append {b nl : Str} (hb : '\n' ∉ b) (hnl : OptNl nl) :
    dropFinalNl (b ++ nl) = b := by
  unfold dropFinalNl
  rcases hnl with rfl | rfl
  · rw [if_neg, List.append_nil]
    intro h
    obtain ⟨t, ht⟩ := endsWith_iff.1 h
    rw [List.append_nil] at ht
    exact hb (by rw [ht]; simp)
  · rw [if_pos (endsWith_iff.2 ⟨b, rfl⟩)]
    simp

theorem splitLastBlank_spec {s : Str} {h w : Str} (hs : splitLastBlank s = some (h, w)) :
    s = h ++ c!" " ++ w ∧ ' ' ∉ w := by
  unfold splitLastBlank at hs
  simp only at hs
  split at hs
  · cases hs
  · rename_i x t hd
    injection hs with hs
    injection hs with h1 h2
    have hx : x = ' ' := by
      have := List.head?_dropWhile_not (fun c : Char => decide (c ≠ ' ')) s.reverse
      rw [hd] at this
      simpa using this
    have := List.takeWhile_append_dropWhile (p := fun c : Char => decide (c ≠ ' ')) (l := s.reverse)
    rw [hd] at this
    have hrev := congrArg List.reverse this
    rw [List.reverse_reverse] at hrev
    refine ⟨?_, ?_⟩
    · rw [← hrev, ← h1, ← h2, hx]
      simp
    · rw [← h2]
      intro hmem
      have hall := List.all_takeWhile (p := fun c : Char => decide (c ≠ ' ')) (l := s.reverse)
      have := List.all_eq_true.1 hall ' ' (by simpa using hmem)
      simp at this

theorem takeWhile_append_of_all {p : Char → Bool} {a b : Str} (h : ∀ c ∈ a, p c = true) :
    (a ++ b).takeWhile p = a ++ b.takeWhile p := by
  induction a with
  | nil => rfl
  | cons c t ih => simp [h c (by simp), ih (fun d hd => h d (by simp [hd]))]

theorem dropWhile_append_of_all {p : Char → Bool} {a b : Str} (h : ∀ c ∈ a, p c = true) :
    (a ++ b).dropWhile p = b.dropWhile p := by
  induction a with
  | nil => rfl
  | cons c t ih => simp [h c (by simp), ih (fun d hd => h d (by simp [hd]))]

theorem splitLastBlank_append {h w : Str} (hw : ' ' ∉ w) :
    splitLastBlank (h ++ c!" " ++ w) = some (h, w) := by
  unfold splitLastBlank
  have hw' : ∀ c ∈ w.reverse, (fun c : Char => decide (c ≠ ' ')) c = true := by
    intro c hc
    have : c ∈ w := by simpa using hc
    simp only [decide_eq_true_eq]
    rintro rfl
    exact hw this
  have hr : (h ++ c!" " ++ w).reverse = w.reverse ++ ' ' :: h.reverse := by simp
  simp only [hr]
  rw [dropWhile_append_of_all hw', takeWhile_append_of_all hw']
  simp

theorem matchFedora_iff (s d : Str) : matchFedora s = some d ↔
    ∃ fed mid nl, s = fed ++ mid ++ c!" " ++ d ++ nl ∧ lower fed = c!"fedora" ∧ '\n' ∉ mid ∧
      d ≠ [] ∧ (∀ c ∈ d, isDigit c = true) ∧ OptNl nl := by
  constructor
  · intro h
    unfold matchFedora at h
    obtain ⟨nl, hs, hnl, _⟩ := dropFinalNl_spec s
    simp only at h
    split at h
    · rename_i hb
      split at h
      · rename_i mid w hsp
        split at h
        · rename_i hw
          injection h with h
          subst h
          obtain ⟨h1, h2⟩ := splitLastBlank_spec hsp
          refine ⟨(dropFinalNl s).take 6, mid, nl, ?_, ?_, ?_, hw.1, ?_, hnl⟩
          · rw [List.append_assoc, List.append_assoc, List.append_assoc]
            rw [show mid ++ (c!" " ++ (w ++ nl)) = (dropFinalNl s).drop 6 ++ nl by rw [h1]; simp]
            rw [← List.append_assoc, List.take_append_drop, ← hs]
          · obtain ⟨t, ht⟩ := startsWith_iff.1 hb.1
            have := congrArg (List.take 6) ht
            simp only [lower] at this ⊢
            rw [List.map_take, this]
            rfl
          · intro hm
            apply hb.2
            have : '\n' ∈ (dropFinalNl s).drop 6 := by rw [h1]; simp [hm]
            exact List.mem_of_mem_drop this
          · exact List.all_eq_true.1 hw.2
        · cases h
      · cases h
    · cases h
  · rintro ⟨fed, mid, nl, rfl, hfed, hmid, hd, hdig, hnl⟩
    have hdnl : '\n' ∉ d := fun h => by have := hdig _ h; revert this; decide
    have hdb : ' ' ∉ d := fun h => by have := hdig _ h; revert this; decide
    have hfnl : '\n' ∉ fed := by
      intro h
      have : lowerC '\n' ∈ lower fed := List.mem_map.2 ⟨_, h, rfl⟩
      rw [hfed] at this
      revert this; decide
    have hlen : fed.length = 6 := by rw [← lower_length, hfed]; rfl
    have hnb : '\n' ∉ fed ++ mid ++ c!" " ++ d := by
      simp only [List.mem_append, not_or]
      exact ⟨⟨⟨hfnl, hmid⟩, by decide⟩, hdnl⟩
    unfold matchFedora
    simp only
    rw [dropFinalNl_append hnb hnl]
    have hst : startsWith (lower (fed ++ mid ++ c!" " ++ d)) c!"fedora" = true := by
      rw [List.append_assoc, List.append_assoc, lower_append, hfed]
      exact startsWith_append _ _
    rw [if_pos ⟨hst, hnb⟩]
    · have : (fed ++ mid ++ c!" " ++ d).drop 6 = mid ++ c!" " ++ d := by
        rw [List.append_assoc, List.append_assoc, ← hlen, List.drop_left, List.append_assoc]
      rw [this, splitLastBlank_append hdb]
      simp only
      rw [if_pos ⟨hd, List.all_eq_true.2 hdig⟩]
theorem takeWhile_dot {d minor : Str} (hdig : ∀ c ∈ d, isDigit c = true)
    (hm : minor = [] ∨ minor.head? = some '.') : (d ++ minor).takeWhile isDigit = d := by
  rw [takeWhile_append_of_all hdig]
  rcases hm with rfl | hm
  · simp
  · cases minor with
    | nil => simp
    | cons c t =>
      simp only [List.head?_cons, Option.some.injEq] at hm
      subst hm
      simp [show isDigit '.' = false by decide]

theorem matchRhel_iff (s d : Str) : matchRhel s = some d ↔
    ∃ rh mid minor nl, s = rh ++ mid ++ c!" " ++ d ++ minor ++ nl ∧
      lower rh = c!"red hat enterprise linux" ∧ '\n' ∉ mid ∧
      d ≠ [] ∧ (∀ c ∈ d, isDigit c = true) ∧ (minor = [] ∨ minor.head? = some '.') ∧
      (∀ c ∈ minor, isDigit c = true ∨ c = '.') ∧ OptNl nl := by
  constructor
  · intro h
    unfold matchRhel at h
    obtain ⟨nl, hs, hnl, _⟩ := dropFinalNl_spec s
    simp only at h
    split at h
    · rename_i hb
      split at h
      · rename_i mid w hsp
        split at h
        · rename_i hw
          injection h with h
          obtain ⟨h1, h2⟩ := splitLastBlank_spec hsp
          have hcat : d ++ w.dropWhile isDigit = w := by
            rw [← h]; exact List.takeWhile_append_dropWhile
          have hall := List.all_eq_true.1 hw.2
          refine ⟨(dropFinalNl s).take 24, mid, w.dropWhile isDigit, nl, ?_, ?_, ?_, ?_, ?_, ?_, ?_, hnl⟩
          · rw [show (dropFinalNl s).take 24 ++ mid ++ c!" " ++ d ++ w.dropWhile isDigit ++ nl
                = (dropFinalNl s).take 24 ++ (mid ++ c!" " ++ (d ++ w.dropWhile isDigit)) ++ nl by simp]
            rw [hcat, ← h1, List.take_append_drop, ← hs]
          · obtain ⟨t, ht⟩ := startsWith_iff.1 hb.1
            have := congrArg (List.take 24) ht
            simp only [lower] at this ⊢
            rw [List.map_take, this]
            rfl
          · intro hm
            apply hb.2
            have : '\n' ∈ (dropFinalNl s).drop 24 := by rw [h1]; simp [hm]
            exact List.mem_of_mem_drop this
          · rw [← h]; exact hw.1
          · rw [← h]; exact List.all_eq_true.1 List.all_takeWhile
          · cases hm : w.dropWhile isDigit with
            | nil => exact Or.inl rfl
            | cons c t =>
              right
              have hnd := List.head?_dropWhile_not isDigit w
              rw [hm] at hnd
              have hc : c ∈ w := by rw [← hcat, hm]; simp
              have := hall c hc
              simp only [List.head?_cons] at hnd ⊢
              simp only [Bool.or_eq_true, beq_iff_eq] at this
              rcases this with h3 | h3
              · rw [h3] at hnd; simp at hnd
              · rw [h3]
          · intro c hc
            have : c ∈ w := by rw [← hcat]; simp [hc]
            simpa using hall c this
        · cases h
      · cases h
    · cases h
  · rintro ⟨rh, mid, minor, nl, rfl, hrh, hmid, hd, hdig, hm1, hm2, hnl⟩
    have hw : ∀ c ∈ d ++ minor, isDigit c = true ∨ c = '.' := by
      intro c hc
      rcases List.mem_append.1 hc with hc | hc
      · exact Or.inl (hdig c hc)
      · exact hm2 c hc
    have hnl1 : '\n' ∉ d ++ minor := fun h => by have := hw _ h; revert this; decide
    have hb1 : ' ' ∉ d ++ minor := fun h => by have := hw _ h; revert this; decide
    have hrnl : '\n' ∉ rh := by
      intro h
      have : lowerC '\n' ∈ lower rh := List.mem_map.2 ⟨_, h, rfl⟩
      rw [hrh] at this
      revert this; decide
    have hlen : rh.length = 24 := by rw [← lower_length, hrh]; rfl
    have hnb : '\n' ∉ rh ++ mid ++ c!" " ++ d ++ minor := by
      simp only [List.mem_append, not_or] at hnl1 ⊢
      exact ⟨⟨⟨⟨hrnl, hmid⟩, by decide⟩, hnl1.1⟩, hnl1.2⟩
    unfold matchRhel
    simp only
    rw [dropFinalNl_append hnb hnl]
    have hst : startsWith (lower (rh ++ mid ++ c!" " ++ d ++ minor)) c!"red hat enterprise linux" = true := by
      rw [show rh ++ mid ++ c!" " ++ d ++ minor = rh ++ (mid ++ c!" " ++ d ++ minor) by simp,
        lower_append, hrh]
      exact startsWith_append _ _
    rw [if_pos ⟨hst, hnb⟩]
    · have : (rh ++ mid ++ c!" " ++ d ++ minor).drop 24 = mid ++ c!" " ++ (d ++ minor) := by
        rw [show rh ++ mid ++ c!" " ++ d ++ minor = rh ++ (mid ++ c!" " ++ (d ++ minor)) by simp]
        rw [← hlen, List.drop_left]
      rw [this, splitLastBlank_append hb1]
      simp only
      rw [takeWhile_dot hdig hm1]
      have hall : (d ++ minor).all (fun c => isDigit c || c == '.') = true := by
        rw [List.all_eq_true]
        intro c hc
        simpa using hw c hc
      rw [if_pos ⟨hd, hall⟩]

theorem map_disjoint : ∀ p ∈ versionMap, ∀ q ∈ versionMap, ∀ d : Str,
    p.1 = c!"FC" ++ d → q.1 = c!"F" ++ d → False := by
  have h : ∀ p ∈ versionMap, p.1.take 2 = c!"FC" → ∀ q ∈ versionMap, q.1 ≠ c!"F" ++ p.1.drop 2 := by
    decide +kernel
  intro p hp q hq d h1 h2
  refine h p hp (by rw [h1]; rfl) q hq ?_
  rw [h1, h2]
  rfl

theorem map_no_blank : ∀ p ∈ versionMap, ' ' ∉ p.1 := by decide +kernel

theorem upper_mem_blank {s : Str} (h : ' ' ∈ s) : ' ' ∈ upper s :=
  List.mem_map.2 ⟨' ', h, by decide⟩

/-- C02: exactly the documented language is accepted, with the documented value. -/
theorem C02_accepts_iff (s : Str) (v : Nat) :
    stringToVersion s = .ok v ↔ ShortName s v ∨ FedoraName s v ∨ RhelName s v := by
  constructor
  · intro h
    unfold stringToVersion at h
    split at h
    · rename_i w hw
      injection h with h
      subst h
      exact Or.inl ((mapGet_iff _ _).1 hw)
    · split at h
      · rename_i d hd
        obtain ⟨fed, mid, nl, h1, h2, h3, h4, h5, h6⟩ := (matchFedora_iff _ _).1 hd
        right; left
        refine ⟨fed, mid, d, nl, h1, h2, h3, h4, h5, h6, ?_⟩
        split at h
        · rename_i w hw
          injection h with h
          subst h
          exact Or.inl ((mapGet_iff _ _).1 hw)
        · split at h
          · rename_i w hw
            injection h with h
            subst h
            exact Or.inr ((mapGet_iff _ _).1 hw)
          · cases h
      · split at h
        · rename_i d hd
          obtain ⟨rh, mid, minor, nl, h1, h2, h3, h4, h5, h6, h7, h8⟩ := (matchRhel_iff _ _).1 hd
          right; right
          refine ⟨rh, mid, d, minor, nl, h1, h2, h3, h4, h5, h6, h7, h8, ?_⟩
          split at h
          · rename_i w hw
            injection h with h
            subst h
            exact (mapGet_iff _ _).1 hw
          · cases h
        · cases h
  · intro h
    unfold stringToVersion
    rcases h with h | h | h
    · rw [(mapGet_iff _ _).2 h]
    · obtain ⟨fed, mid, d, nl, h1, h2, h3, h4, h5, h6, h7⟩ := h
      have hb : ' ' ∈ s := by rw [h1]; simp
      have hn : mapGet (upper s) = none := by
        cases hm : mapGet (upper s) with
        | none => rfl
        | some w => exact absurd (upper_mem_blank hb) (map_no_blank _ ((mapGet_iff _ _).1 hm))
      rw [hn, (matchFedora_iff s d).2 ⟨fed, mid, nl, h1, h2, h3, h4, h5, h6⟩]
      simp only
      rcases h7 with h7 | h7
      · rw [(mapGet_iff _ _).2 h7]
      · cases hm : mapGet (c!"FC" ++ d) with
        | none => simp only [(mapGet_iff _ _).2 h7]
        | some w => exact absurd rfl (map_disjoint _ ((mapGet_iff _ _).1 hm) _ h7 d rfl)
    · obtain ⟨rh, mid, d, minor, nl, h1, h2, h3, h4, h5, h6, h7, h8, h9⟩ := h
      have hb : ' ' ∈ s := by rw [h1]; simp
      have hn : mapGet (upper s) = none := by
        cases hm : mapGet (upper s) with
        | none => rfl
        | some w => exact absurd (upper_mem_blank hb) (map_no_blank _ ((mapGet_iff _ _).1 hm))
      have hf : matchFedora s = none := by
        cases hm : matchFedora s with
        | none => rfl
        | some w =>
          exfalso
          obtain ⟨fed, mid', nl', g1, g2, _⟩ := (matchFedora_iff _ _).1 hm
          have e1 : (lower s).head? = some 'f' := by rw [g1]; simp only [List.append_assoc]; rw [lower_append, g2]; rfl
          have e2 : (lower s).head? = some 'r' := by rw [h1]; simp only [List.append_assoc]; rw [lower_append, h2]; rfl
          rw [e1] at e2
          revert e2; decide
      rw [hn, hf, (matchRhel_iff s d).2 ⟨rh, mid, minor, nl, h1, h2, h3, h4, h5, h6, h7, h8⟩]
      simp only [(mapGet_iff _ _).2 h9]

/-- C02: everything else is refused with `KickstartVersionError`. -/
theorem C02_rejects (s : Str) (h : ¬ ∃ v, ShortName s v ∨ FedoraName s v ∨ RhelName s v) :
    ∃ tag, stringToVersion s = .error (.version tag) := by
  cases hs : stringToVersion s with
  | ok v => exact absurd ⟨v, (C02_accepts_iff s v).1 hs⟩ h
  | error e =>
    unfold stringToVersion at hs
    repeat' split at hs
    all_goals first | (cases hs; done) | (injection hs with hs; subst hs; exact ⟨_, rfl⟩)

example : FedoraName c!"Fedora Core release 6" 4000 ∧ RhelName c!"Red Hat Enterprise Linux Server 7.9" 19100
    ∧ ShortName c!"f34" 34000 := by
  refine ⟨⟨c!"Fedora", c!" Core release", c!"6", [], ?_⟩,
    ⟨c!"Red Hat Enterprise Linux", c!" Server", c!"7", c!".9", [], ?_⟩, by unfold ShortName; decide +kernel⟩
  · refine ⟨rfl, by decide, by decide, by decide, by decide, Or.inl rfl, Or.inl (by decide +kernel)⟩
  · refine ⟨rfl, by decide, by decide, by decide, by decide, Or.inr rfl, by decide, Or.inl rfl, by decide +kernel⟩

example : stringToVersion c!"rhel9" = .error unsupported := by decide +kernel

/-! ## C03 -/

/-- The marker of a version line. -/
def IsVersionLine (l : Str) : Prop := ∃ t, l = c!"#version=" ++ t

theorem take9_iff (l : Str) : l.take 9 = c!"#version=" ↔ IsVersionLine l := by
  constructor
  · intro h
    exact ⟨l.drop 9, by rw [← h, List.take_append_drop]⟩
  · rintro ⟨t, rfl⟩
    rfl

theorem versionFromLines_skip {pre : List Str} {rest : List Str} (h : ∀ l ∈ pre, ¬ IsVersionLine l) :
    versionFromLines (pre ++ rest) = versionFromLines rest := by
  induction pre with
  | nil => rfl
  | cons l t ih =>
    have hl : ¬ l.take 9 = c!"#version=" := fun e => h l (by simp) ((take9_iff l).1 e)
    rw [List.cons_append, versionFromLines]
    rw [ih (fun x hx => h x (by simp [hx])), if_neg hl]
    split <;> rfl

/-- C03: no version line means `DEVEL`. -/
theorem C03_default (load : Str → Except Exc Str) (f contents : Str) (hl : load f = .ok contents)
    (h : ∀ l ∈ splitLines contents, ¬ IsVersionLine l) :
    versionFromFile load f = .ok 34000 := by
  unfold versionFromFile
  rw [hl]
  simp only [Except.bind]
  have := versionFromLines_skip (rest := []) h
  rw [List.append_nil] at this
  rw [this]
  rfl

/-- C03: the first version line decides, whatever precedes or follows it. -/
theorem C03_first_line (load : Str → Except Exc Str) (f contents : Str) (hl : load f = .ok contents)
    (pre post : List Str) (value : Str)
    (hs : splitLines contents = pre ++ (c!"#version=" ++ value) :: post)
    (hpre : ∀ l ∈ pre, ¬ IsVersionLine l) :
    versionFromFile load f = stringToVersion (rstrip value) := by
  unfold versionFromFile
  rw [hl]
  simp only [Except.bind]
  rw [hs, versionFromLines_skip hpre, versionFromLines]
  rw [if_neg, if_pos (by rfl)]
  · rfl
  · intro h
    have hh := (strip_decomp (c!"#version=" ++ value))
    rw [h] at hh
    obtain ⟨a, b, h1, ha, hb⟩ := hh
    have hm : '#' ∈ a ++ [] ++ b := by rw [← h1]; simp
    have : isSpace '#' = true := by
      simp only [List.append_nil, List.mem_append] at hm
      rcases hm with hm | hm
      · exact List.all_eq_true.1 ha _ hm
      · exact List.all_eq_true.1 hb _ hm
    revert this; decide

/-- C03: a file that cannot be loaded raises the loader's exception. -/
theorem C03_unreadable (load : Str → Except Exc Str) (f : Str) (e : Exc) (hl : load f = .error e) :
    versionFromFile load f = .error e := by
  unfold versionFromFile
  rw [hl]
  rfl

example : versionFromFile (fun _ => .ok c!"# x\n#version=RHEL7  \r\n#version=F9\n") c!"ks.cfg" = .ok 19100 := by
  decide +kernel

/-! ## C04 -/

theorem importHandler_of_release : ∀ p ∈ versionMap, p.1 ≠ c!"DEVEL" →
    importHandler (lower p.1) = .ok (some (p.1 ++ c!"Handler", some p.2)) := by decide +kernel

theorem findName_devel_or (p : Str × Nat) (hp : p ∈ versionMap) (hd : p.1 ≠ c!"DEVEL") :
    versionToString p.2 true = .ok p.1 := by
  have : ∀ p ∈ versionMap, p.1 ≠ c!"DEVEL" → versionToString p.2 true = .ok p.1 := by decide +kernel
  exact this p hp hd

theorem releases_in_map : ∀ r ∈ releases, r ∈ versionMap ∧ r.1 ≠ c!"DEVEL" := by decide +kernel

/-- C04: for every supported constant the handler of that version is made. -/
theorem C04_int (r : Str × Nat) (h : r ∈ releases) :
    returnClassForVersion (.int r.2) = .ok (some (r.1 ++ c!"Handler", some r.2)) ∧
    makeVersion (.int r.2) = .ok (some r.2) := by
  obtain ⟨h1, h2⟩ := releases_in_map r h
  have : returnClassForVersion (.int r.2) = .ok (some (r.1 ++ c!"Handler", some r.2)) := by
    unfold returnClassForVersion
    simp only [findName_devel_or r h1 h2, Except.bind, importHandler_of_release r h1 h2]
  refine ⟨this, ?_⟩
  unfold makeVersion
  rw [this]
  rfl

theorem upperC_letter {c : Char} (h : 65 ≤ (upperC c).toNat ∧ (upperC c).toNat ≤ 90) :
    isSpace c = false ∧ isDigit c = false ∧ c ≠ '-' ∧ c ≠ '+' := by
  rw [upperC_toNat] at h
  have hn : 65 ≤ c.toNat ∧ c.toNat ≤ 122 := by split at h <;> omega
  refine ⟨?_, ?_, ?_, ?_⟩
  · simp only [isSpace, Bool.or_eq_false_iff, Bool.and_eq_false_iff, beq_eq_false_iff_ne, decide_eq_false_iff_not]
    omega
  · simp only [isDigit, Bool.and_eq_false_iff, decide_eq_false_iff_not]; omega
  · rintro rfl; revert hn; decide
  · rintro rfl; revert hn; decide

theorem pyInt_letter {c : Char} {t : Str} (h1 : isSpace c = false) (h2 : isDigit c = false)
    (h3 : c ≠ '-') (h4 : c ≠ '+') : pyInt (c :: t) = none := by
  unfold pyInt
  have hs : ∃ u, intStrip (c :: t) = c :: u := by
    unfold intStrip
    have h1' := intSpace_isSpace h1
    simp only [List.dropWhile_cons, h1', Bool.false_eq_true, if_false, List.reverse_cons]
    have : ∀ l : Str, ∃ u, (l ++ [c]).dropWhile intSpace = u ++ [c] := by
      intro l
      induction l with
      | nil => exact ⟨[], by simp [h1']⟩
      | cons d l ih =>
        simp only [List.cons_append, List.dropWhile_cons]
        split
        · exact ih
        · exact ⟨d :: l, rfl⟩
    obtain ⟨u, hu⟩ := this t.reverse
    exact ⟨u.reverse, by rw [hu]; simp⟩
  obtain ⟨u, hu⟩ := hs
  rw [hu]
  split
  · rename_i he; injection he with he _; exact absurd he h3
  · rename_i he; injection he with he _; exact absurd he h4
  · simp [natLit, h2]

/-- C04: every short name other than `DEVEL`, in any letter case, gives the handler of that
version. -/
theorem C04_name (r : Str × Nat) (h : r ∈ releases) (s : Str) (hs : upper s = upper r.1) :
    makeVersion (.str s) = .ok (some r.2) := by
  obtain ⟨h1, h2⟩ := releases_in_map r h
  have hu : upper s = r.1 := by rw [hs]; exact upper_of_map _ h1
  have hp : pyInt s = none := by
    have hhead : ∀ p ∈ versionMap, ∃ c, p.1.head? = some c ∧ 65 ≤ c.toNat ∧ c.toNat ≤ 90 := by
      have : ∀ p ∈ versionMap, (p.1.head?.map fun c => decide (65 ≤ c.toNat ∧ c.toNat ≤ 90)) = some true := by
        decide +kernel
      intro p hp
      have := this p hp
      cases hc : p.1.head? with
      | none => rw [hc] at this; simp at this
      | some c => rw [hc] at this; exact ⟨c, rfl, by simpa using this⟩
    obtain ⟨c, hc, hr⟩ := hhead r h1
    cases s with
    | nil => rw [← hu] at hc; simp [upper] at hc
    | cons d t =>
      rw [← hu] at hc
      simp only [upper, List.map_cons, List.head?_cons, Option.some.injEq] at hc
      rw [← hc] at hr
      obtain ⟨a1, a2, a3, a4⟩ := upperC_letter hr
      exact pyInt_letter a1 a2 a3 a4
  have hv : stringToVersion s = .ok r.2 := (C02_accepts_iff s r.2).2 (Or.inl (by unfold ShortName; rw [hu]; exact h1))
  have hl : lower s = lower r.1 := by rw [← lower_upper s, hu]
  unfold makeVersion returnClassForVersion
  simp only [hp, hv, Except.bind, hl, importHandler_of_release r h1 h2]
  rfl

/-- C04: a decimal string means the constant it denotes. -/
theorem C04_decimal (s : Str) (n : Int) (h : pyInt s = some n) :
    makeVersion (.str s) = makeVersion (.int n) := by
  unfold makeVersion returnClassForVersion
  simp only [h]

example : pyInt c!" 34000 " = some 34000 ∧ makeVersion (.str c!" 34000 ") = .ok (some 34000) := by
  decide +kernel

/-- C04, last clause, is false: `stringToVersion` accepts `DEVEL` and the long names, but
`makeVersion` refuses them. -/
theorem C04_accepted_name_refused :
    (stringToVersion c!"DEVEL" = .ok 34000 ∧ ∃ t, makeVersion (.str c!"DEVEL") = .error (.version t)) ∧
    (stringToVersion c!"Fedora 34" = .ok 34000 ∧
      ∃ t, makeVersion (.str c!"Fedora 34") = .error (.version t)) :=
  ⟨⟨by decide +kernel, c!"Unsupported version specified", by decide +kernel⟩,
    ⟨by decide +kernel, c!"Unsupported version specified", by decide +kernel⟩⟩

theorem module_upper : ∀ m ∈ handlerModules, ∃ r ∈ releases, upper m.module = r.1 := by decide +kernel

/-- C04, what holds instead of the last clause: a non-numeric string gives a handler exactly
when it is a short name of a release other than `DEVEL`; in every other case
`KickstartVersionError` is raised. -/
theorem C04_name_only_partial (s : Str) (hp : pyInt s = none) :
    (∃ r ∈ releases, upper s = r.1 ∧ makeVersion (.str s) = .ok (some r.2)) ∨
    ((∀ r ∈ releases, upper s ≠ r.1) ∧ ∃ tag, makeVersion (.str s) = .error (.version tag)) := by
  by_cases hr : ∃ r ∈ releases, upper s = r.1
  · obtain ⟨r, hr, hs⟩ := hr
    left
    refine ⟨r, hr, hs, C04_name r hr s ?_⟩
    rw [hs]
    exact (upper_of_map _ (releases_in_map r hr).1).symm
  · right
    have hr' : ∀ r ∈ releases, upper s ≠ r.1 := fun r h e => hr ⟨r, h, e⟩
    refine ⟨hr', ?_⟩
    have hi : importHandler (lower s) = .error unsupported := by
      unfold importHandler
      cases hf : handlerModules.find? (fun m => m.module == lower s) with
      | none => rfl
      | some m =>
        exfalso
        have hm := List.mem_of_find?_eq_some hf
        have he := List.find?_some hf
        obtain ⟨r, hr1, hr2⟩ := module_upper m hm
        have : m.module = lower s := by simpa using he
        rw [this, upper_lower] at hr2
        exact hr' r hr1 hr2
    unfold makeVersion returnClassForVersion
    simp only [hp]
    cases hv : stringToVersion s with
    | ok v =>
      simp only [Except.bind, hi, Except.map]
      exact ⟨_, rfl⟩
    | error e =>
      have : ∃ tag, e = .version tag := by
        by_cases hx : ∃ v, ShortName s v ∨ FedoraName s v ∨ RhelName s v
        · obtain ⟨v, hx⟩ := hx
          rw [(C02_accepts_iff s v).2 hx] at hv
          cases hv
        · obtain ⟨t, ht⟩ := C02_rejects s hx
          rw [ht] at hv
          injection hv with hv
          exact ⟨t, hv.symm⟩
      obtain ⟨tag, rfl⟩ := this
      exact ⟨tag, rfl⟩

/-- C04: `makeVersion` on an unsupported integer raises `KickstartVersionError`. -/
theorem C04_int_refused (n : Int) (h : ¬ Supported n) :
    ∃ tag, makeVersion (.int n) = .error (.version tag) := by
  obtain ⟨tag, ht⟩ := (C01_supported_iff n true).2 h
  refine ⟨tag, ?_⟩
  unfold makeVersion returnClassForVersion
  simp only [ht]
  rfl

end Version
end Ks
