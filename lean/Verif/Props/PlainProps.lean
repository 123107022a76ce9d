import Verif.Props.WordProps3
/-!
# C78: in every session, plain settings of `lang`, `keyboard`, `timezone` and `rootpw` are read again as they are written
-/
namespace Ks

open Cmd

/-! ## Specification -/

/-- The settings `d` of the command `n` need no escaping and fit together. -/
def WordSettings (v : Nat) (n : Str) (d : Ns) : Prop :=
  (n = c!"lang" ∧ ∃ w ws, PlainWord w ∧ (∀ x ∈ ws, PlainElem x) ∧ d.getD c!"lang" = .str w ∧ ListIs d c!"addsupport" ws) ∨
  (n = c!"keyboard" ∧ v < Version.F18 ∧ ∃ w, PlainWord w ∧ d.getD c!"keyboard" = .str w) ∨
  (n = c!"keyboard" ∧ Version.F18 ≤ v ∧ ∃ w, QuoteWord w ∧ d.getD c!"_keyboard" = .str w ∧ (d.getD c!"vc_keymap").truthy = false ∧ (d.getD c!"x_layouts").truthy = false) ∨
  (n = c!"keyboard" ∧ Version.F18 ≤ v ∧ ∃ vc xs sw, LayoutsAre d vc xs sw ∧ (vc ≠ [] ∨ xs ≠ []) ∧ (∀ c ∈ vc, PlainChar c) ∧ (∀ x ∈ xs, QuoteElem x) ∧ ∀ x ∈ sw, QuoteElem x) ∨
  (n = c!"rootpw" ∧ ∃ w, PlainPassword w ∧ d.getD c!"password" = .str w) ∨
  (n = c!"rootpw" ∧ Version.F18 ≤ v ∧ (d.getD c!"password").truthy = false ∧ (d.getD c!"lock").truthy = true) ∨
  (n = c!"timezone" ∧ ∃ w u off ws, ZoneIs d w u off ws ∧ (PlainWord w ∨ w = [] ∧ Version.F25 ≤ v ∧ (u = true ∨ off = true ∨ ws ≠ [])) ∧ (∀ x ∈ ws, PlainElem x) ∧
    (off = false ∨ ws = []) ∧ (Version.F18 ≤ v → v < Version.F23 → v ≠ Version.RHEL7 → ws.length ≤ 1))

/-- The settings that are read as true or false. -/
def flagKeys : List Str := [c!"isCrypted", c!"lock", c!"isUtc", c!"nontp"]

/-- The setting `k` is the same in `d` and `d'`: set in both or in neither, and with the same value if it is more than a truth value. -/
def SameSetting (d d' : Ns) (k : Str) : Prop :=
  (d.getD k).truthy = (d'.getD k).truthy ∧ (k ∉ flagKeys → (d.getD k).truthy = true → d.getD k = d'.getD k)

/-- The settings of the command that its text has to carry.  The options for switching count only with layouts, and whether the password is encrypted only with a password. -/
def settingKeys (v : Nat) (n : Str) (d : Ns) : List Str :=
  if n = c!"lang" then c!"lang" :: if v < Version.F19 then [] else [c!"addsupport"]
  else if n = c!"keyboard" then
    if v < Version.F18 then [c!"keyboard"]
    else [c!"_keyboard", c!"vc_keymap", c!"x_layouts"] ++ if (d.getD c!"vc_keymap").truthy || (d.getD c!"x_layouts").truthy then [c!"switch_options"] else []
  else if n = c!"rootpw" then
    [c!"password"] ++ (if (d.getD c!"password").truthy then [c!"isCrypted"] else []) ++ if v < Version.F8 then [] else [c!"lock"]
  else if n = c!"timezone" then [c!"timezone", c!"isUtc"] ++ if v < Version.F18 then [] else [c!"nontp", c!"ntpservers"]
  else []

/-- The settings of the command `n` are the same in `d'` as in `d`. -/
def SameSettings (v : Nat) (n : Str) (d d' : Ns) : Prop := ∀ k ∈ settingKeys v n d, SameSetting d d' k

theorem SameSetting.of_eq {d d' : Ns} {k : Str} {x : Val} (h : d.getD k = x) (h' : d'.getD k = x) : SameSetting d d' k :=
  ⟨by rw [h, h'], fun _ _ => h.trans h'.symm⟩

theorem SameSetting.of_unset {d d' : Ns} {k : Str} (h : (d.getD k).truthy = false) (h' : (d'.getD k).truthy = false) : SameSetting d d' k :=
  ⟨h.trans h'.symm, fun _ ht => by rw [h] at ht; cases ht⟩

theorem SameSetting.of_flag {d d' : Ns} {k : Str} (hk : k ∈ flagKeys) {b : Bool} (h : (d.getD k).truthy = b) (h' : (d'.getD k).truthy = b) : SameSetting d d' k :=
  ⟨h.trans h'.symm, fun hn => absurd hk hn⟩

theorem SameSetting.of_str {d d' : Ns} {k w : Str} (h : StrIs d k w) (h' : StrIs d' k w) : SameSetting d d' k := by
  refine ⟨h.truthy.trans h'.truthy.symm, fun _ ht => ?_⟩
  rw [h.truthy] at ht
  rcases h with h | ⟨-, rfl⟩
  · rcases h' with h' | ⟨-, rfl⟩
    · exact h.trans h'.symm
    · cases ht
  · cases ht

theorem SameSetting.of_list {d d' : Ns} {k : Str} {ws : List Str} (h : ListIs d k ws) (h' : ListIs d' k ws) : SameSetting d d' k := by
  refine ⟨h.truthy.trans h'.truthy.symm, fun _ ht => ?_⟩
  rw [h.truthy] at ht
  rcases h with h | ⟨-, rfl⟩
  · rcases h' with h' | ⟨-, rfl⟩
    · exact h.trans h'.symm
    · cases ht
  · cases ht

theorem ReadBack.imp {v : Nat} {n text : Str} {Q R : Ns → Prop} (h : ReadBack v n text Q) (i : ∀ d, Q d → R d) : ReadBack v n text R := ⟨h.1, i _ h.2⟩

/-! ## The classes -/

theorem lang_class : ∀ y ∈ commandMaps, y.2.lookup c!"lang" = some (if y.1 < Version.F19 then FC3_Lang.cls else F19_Lang.cls) := by
  unfold commandMaps
  repeat' (first | exact List.forall_mem_nil _ | refine List.forall_mem_cons.2 ⟨?_, ?_⟩)
  all_goals rfl

theorem keyboard_class : ∀ y ∈ commandMaps, y.2.lookup c!"keyboard" = some (if y.1 < Version.F18 then FC3_Keyboard.cls else F18_Keyboard.cls) := by
  unfold commandMaps
  repeat' (first | exact List.forall_mem_nil _ | refine List.forall_mem_cons.2 ⟨?_, ?_⟩)
  all_goals rfl

theorem rootpw_class : ∀ y ∈ commandMaps, y.2.lookup c!"rootpw" = some (if y.1 < Version.F8 then FC3_RootPw.cls else if y.1 < Version.F18 then F8_RootPw.cls else F18_RootPw.cls) := by
  unfold commandMaps
  repeat' (first | exact List.forall_mem_nil _ | refine List.forall_mem_cons.2 ⟨?_, ?_⟩)
  all_goals rfl

theorem timezone_class : ∀ y ∈ commandMaps, y.2.lookup c!"timezone" = some (if y.1 < Version.FC6 then FC3_Timezone.cls else if y.1 < Version.F18 then FC6_Timezone.cls else
    if y.1 = Version.RHEL7 then RHEL7_Timezone.cls else if y.1 < Version.F23 then F18_Timezone.cls else if y.1 < Version.F25 then F23_Timezone.cls else
    if y.1 < Version.F32 then F25_Timezone.cls else if y.1 < Version.F33 then F32_Timezone.cls else F33_Timezone.cls) := by
  unfold commandMaps
  repeat' (first | exact List.forall_mem_nil _ | refine List.forall_mem_cons.2 ⟨?_, ?_⟩)
  all_goals rfl

/-! ## The theorem for the class -/

theorem settings_stable {v : Nat} (hv : Supported v) {n : Str} {c : Command} (hc : (commandMap v).lookup n = some c) {i : Inst CState} (hd : WordSettings v n (selfOf i)) : 
    ReadBack v n (c.str i) (SameSettings v n (selfOf i)) := by
  have hm := supported_mem hv
  rcases hd with ⟨rfl, w, ws, h1, h2, h3⟩ | ⟨rfl, hlt, w, h1, h2⟩ | ⟨rfl, hge, w, h1, h2, h3, h4⟩ | ⟨rfl, hge, vc, xs, sw, h1, h2, h3, h4, h5⟩ | ⟨rfl, w, h1, h2⟩ | ⟨rfl, hge, h1, h2⟩ |
    ⟨rfl, w, u, off, ws, h1, h2, h3, h4, h5⟩
  · have := hc.symm.trans (lang_class _ hm)
    split at this <;> cases this
    · rename_i g
      refine (lang_fc3 hv hc h1 h3.1).imp fun d' e => ?_
      unfold SameSettings settingKeys
      rw [if_pos rfl, if_pos g]
      simp only [List.mem_singleton, forall_eq]
      exact .of_eq h3.1 e
    · rename_i g
      refine (lang_f19 hv hc h1 h2 h3).imp fun d' e => ?_
      unfold SameSettings settingKeys
      rw [if_pos rfl, if_neg g]
      simp only [List.mem_cons, List.not_mem_nil, or_false, forall_eq_or_imp, forall_eq]
      exact ⟨.of_eq h3.1 e.1, .of_list h3.2 e.2⟩
  · have := hc.symm.trans (keyboard_class _ hm)
    rw [if_pos hlt] at this
    cases this
    refine (keyboard_fc3 hv hc h1 h2).imp fun d' e => ?_
    unfold SameSettings settingKeys
    rw [if_neg (by decide), if_pos rfl, if_pos hlt]
    simp only [List.mem_singleton, forall_eq]
    exact .of_eq h2 e
  · have := hc.symm.trans (keyboard_class _ hm)
    rw [if_neg (Nat.not_lt.2 hge)] at this
    cases this
    refine (keyboard_f18_word hv hc h1 h2 h3 h4).imp fun d' e => ?_
    unfold SameSettings settingKeys
    rw [if_neg (by decide), if_pos rfl, if_neg (Nat.not_lt.2 hge), h3, h4, if_neg (by decide)]
    simp only [List.append_nil, List.mem_cons, List.not_mem_nil, or_false, forall_eq_or_imp, forall_eq]
    exact ⟨.of_eq h2 e.1, .of_unset h3 e.2.1, .of_unset h4 e.2.2⟩
  · have := hc.symm.trans (keyboard_class _ hm)
    rw [if_neg (Nat.not_lt.2 hge)] at this
    cases this
    refine (keyboard_f18_layouts hv hc h1 h2 h3 h4 h5).imp fun d' e => ?_
    intro k hk
    have hk' : k ∈ [c!"_keyboard", c!"vc_keymap", c!"x_layouts", c!"switch_options"] := by
      unfold settingKeys at hk
      rw [if_neg (by decide), if_pos rfl, if_neg (Nat.not_lt.2 hge)] at hk
      rcases List.mem_append.1 hk with hk | hk
      · exact List.mem_append_left [c!"switch_options"] hk
      · split at hk
        · exact List.mem_append_right [c!"_keyboard", c!"vc_keymap", c!"x_layouts"] hk
        · cases hk
    clear hk
    revert k
    simp only [List.mem_cons, List.not_mem_nil, or_false, forall_eq_or_imp, forall_eq]
    exact ⟨.of_unset h1.old e.old, .of_str h1.vc e.vc, .of_list h1.xs e.xs, .of_list h1.sw e.sw⟩
  · have := hc.symm.trans (rootpw_class _ hm)
    have ht : ((selfOf i).getD c!"password").truthy = true := by
      rw [h2]
      cases w with
      | nil => exact absurd rfl h1.1
      | cons _ _ => rfl
    split at this
    · rename_i g
      cases this
      refine (rootpw_fc3 hv hc h1 ⟨h2, rfl⟩).imp fun d' e => ?_
      unfold SameSettings settingKeys
      rw [if_neg (by decide), if_neg (by decide), if_pos rfl, if_pos ht, if_pos g]
      simp only [List.append_nil, List.cons_append, List.nil_append, List.mem_cons, List.not_mem_nil, or_false, forall_eq_or_imp, forall_eq]
      exact ⟨.of_eq h2 e.1, .of_flag (by decide) rfl e.2⟩
    · rename_i g
      have fin : ∀ d', PasswordIs d' w ((selfOf i).getD c!"isCrypted").truthy ∧ (d'.getD c!"lock").truthy = ((selfOf i).getD c!"lock").truthy → SameSettings v c!"rootpw" (selfOf i) d' := by
        intro d' e
        unfold SameSettings settingKeys
        rw [if_neg (by decide), if_neg (by decide), if_pos rfl, if_pos ht, if_neg g]
        simp only [List.cons_append, List.nil_append, List.mem_cons, List.not_mem_nil, or_false, forall_eq_or_imp, forall_eq]
        exact ⟨.of_eq h2 e.1.1, .of_flag (by decide) rfl e.1.2, .of_flag (by decide) rfl e.2⟩
      split at this <;> cases this
      · exact (rootpw_f8 hv hc h1 ⟨⟨h2, rfl⟩, rfl⟩).imp fin
      · exact (rootpw_f18 hv hc h1 ⟨⟨h2, rfl⟩, rfl⟩).imp fin
  · have := hc.symm.trans (rootpw_class _ hm)
    rw [if_neg (by unfold Version.F18 at hge; unfold Version.F8; omega), if_neg (Nat.not_lt.2 hge)] at this
    cases this
    refine (rootpw_f18_lock hv hc h1 h2).imp fun d' e => ?_
    unfold SameSettings settingKeys
    rw [if_neg (by decide), if_neg (by decide), if_pos rfl, h1, if_neg (by decide), if_neg (by unfold Version.F18 at hge; unfold Version.F8; omega)]
    simp only [List.append_nil, List.cons_append, List.nil_append, List.mem_cons, List.not_mem_nil, or_false, forall_eq_or_imp, forall_eq]
    exact ⟨.of_unset h1 e.1, .of_flag (by decide) h2 e.2⟩
  · have := hc.symm.trans (timezone_class _ hm)
    have hw : v < Version.F25 → PlainWord w := fun hlt => h2.elim id fun h => absurd h.2.1 (Nat.not_le.2 hlt)
    have hz : w ≠ [] → (selfOf i).getD c!"timezone" = .str w := fun hne => h1.zone.elim id fun h => absurd h.2 hne
    have hw' : w = [] ∨ PlainWord w := h2.elim .inr fun h => .inl h.1
    have old : v < Version.F18 → ∀ d', w ≠ [] → d'.getD c!"timezone" = .str w ∧ (d'.getD c!"isUtc").truthy = u → SameSettings v c!"timezone" (selfOf i) d' := by
      intro g d' hne e
      unfold SameSettings settingKeys
      rw [if_neg (by decide), if_neg (by decide), if_neg (by decide), if_pos rfl, if_pos g]
      simp only [List.append_nil, List.mem_cons, List.not_mem_nil, or_false, forall_eq_or_imp, forall_eq]
      exact ⟨.of_eq (hz hne) e.1, .of_flag (by decide) h1.utc e.2⟩
    have fin : ∀ d', ZoneIs d' w u off ws → SameSettings v c!"timezone" (selfOf i) d' := by
      intro d' e k hk
      have hk' : k ∈ [c!"timezone", c!"isUtc", c!"nontp", c!"ntpservers"] := by
        unfold settingKeys at hk
        rw [if_neg (by decide), if_neg (by decide), if_neg (by decide), if_pos rfl] at hk
        rcases List.mem_append.1 hk with hk | hk
        · exact List.mem_append_left [c!"nontp", c!"ntpservers"] hk
        · split at hk
          · cases hk
          · exact List.mem_append_right [c!"timezone", c!"isUtc"] hk
      clear hk
      revert k
      simp only [List.mem_cons, List.not_mem_nil, or_false, forall_eq_or_imp, forall_eq]
      exact ⟨.of_str h1.zone e.zone, .of_flag (by decide) h1.utc e.utc, .of_flag (by decide) h1.nontp e.nontp, .of_list h1.servers e.servers⟩
    have hne : w ≠ [] ∨ u = true ∨ off = true ∨ ws ≠ [] := h2.elim (fun h => .inl h.1) fun h => .inr h.2.2
    split at this
    · rename_i g
      cases this
      have hw := hw (by unfold Version.FC6 at g; unfold Version.F25; omega)
      exact (zone_fc3 hv hc hw ⟨hz hw.1, h1.utc⟩).imp fun d' => old (by unfold Version.FC6 at g; unfold Version.F18; omega) d' hw.1
    split at this
    · rename_i g
      cases this
      have hw := hw (by unfold Version.F18 at g; unfold Version.F25; omega)
      exact (zone_fc6 hv hc hw ⟨hz hw.1, h1.utc⟩).imp fun d' => old g d' hw.1
    split at this
    · rename_i g
      cases this
      exact (zone_rhel7 hv hc h1 (hw (by simp only [Version.RHEL7] at g; unfold Version.F25; omega)) h3 h4).imp fin
    split at this
    · rename_i g1 g2 g3
      cases this
      exact (zone_f18 hv hc h1 (hw (by unfold Version.F23 at g3; unfold Version.F25; omega)) h3 h4 (h5 (Nat.not_lt.1 g1) g3 g2)).imp fin
    split at this
    · rename_i g
      cases this
      exact (zone_f23 hv hc h1 (hw g) h3 h4).imp fin
    split at this
    · cases this
      exact (zone_f25 hv hc h1 hw' hne h3 h4).imp fin
    split at this <;> cases this
    · exact (zone_f32 hv (.inl hc) h1 hw' hne h3 h4).imp fin
    · exact (zone_f32 hv (.inr hc) h1 hw' hne h3 h4).imp fin

theorem settings_given {v : Nat} {n : Str} (h : WordSettings v n []) : False := by
  have tr : ∀ k, (Ns.getD [] k).truthy = false := fun k => rfl
  have no : ∀ {k w}, Ns.getD [] k = .str w → False := fun h => by cases h
  have nl : ∀ {k ws}, ListIs [] k ws → ws = [] := fun h => h.elim (fun h => by cases h) (·.2)
  have ns : ∀ {k w}, StrIs [] k w → w = [] := fun h => h.elim (fun h => by cases h) (·.2)
  rcases h with ⟨-, w, ws, -, -, h, -⟩ | ⟨-, -, w, -, h⟩ | ⟨-, -, w, -, h, -⟩ | ⟨-, -, vc, xs, sw, h1, h2, -⟩ | ⟨-, w, -, h⟩ | ⟨-, -, -, h⟩ | ⟨-, w, u, off, ws, h1, h2, -⟩
  · exact no h
  · exact no h
  · exact no h
  · exact h2.elim (fun h => h (ns h1.vc)) fun h => h (nl h1.xs)
  · exact no h
  · rw [tr] at h; cases h
  · rcases h2 with h2 | ⟨-, -, h2 | h2 | h2⟩
    · exact h2.1 (ns h1.zone)
    · have := h1.utc; rw [h2, tr] at this; cases this
    · have := h1.nontp; rw [h2, tr] at this; cases this
    · exact h2 (nl h1.servers)

/-- C78: whatever lines have been read, accepted or refused, if the settings of `lang`, `keyboard`, `timezone` or `rootpw` are plain, what is written
for the command is stable: a new handler reads it without an exception, and then writes the same.  And the new handler then has the same settings. -/
theorem C78_restores {v : Nat} (hv : Supported v) {h : Handler CState Ns} (s : Session v h) {n : Str} (hd : WordSettings v n (attrsOf h n)) :
    StableText v n (textOf h n) ∧ SameSettings v n (attrsOf h n) (attrsOf (runCommands Handler.dispatch 0 (lineItems (textOf h n)) (newHandler v)).1 n) := by
  show ReadBack v n (textOf h n) (SameSettings v n (attrsOf h n))
  unfold attrsOf at hd ⊢
  unfold textOf
  split at hd
  · rename_i o ho
    unfold objectOf at ho
    split at ho
    · rename_i r hlk
      obtain ⟨o', ho', hmem⟩ := (session_inv hv s).served n r hlk
      rw [ho] at ho'; cases ho'
      exact settings_stable hv ((mem_iff_lookup (supported_mapOk hv).dict).1 hmem) hd
    · cases ho
  · exact (settings_given hd).elim

/-- A command that writes nothing, and whose new object writes nothing. -/
theorem empty_stable {v : Nat} (hv : Supported v) {n : Str} {c : Command} (hc : (commandMap v).lookup n = some c) (h0 : c.str c.new.inst = []) : StableText v n [] := by
  refine stable_of_class hv hc (t := (newHandler v).seenAttr) (fun _ _ => rfl) (.inl rfl) (fun it hit => by cases hit) (i := c.new.inst) rfl h0

/-- C78: `C77_file` with less to ask.  Nothing is asked of a command that writes nothing, now and at the start, or whose settings are plain in the sense of `WordSettings`. -/
theorem C78_file {v : Nat} (hv : Supported v) (hl : v ∉ liloVersions) (ls : List (Nat × List Str × Str))
    (hst : ∀ n c, (commandMap v).lookup n = some c → c.prio ≠ none → ¬ Unread (readLines v ls) n → fixedTextsOf v n = none → ¬ WordSettings v n (attrsOf (readLines v ls) n) →
      ¬ (textOf (readLines v ls) n = [] ∧ c.str c.new.inst = []) →
      (ListCommand v n ∧ n ∈ lossless.map (·.1) ∧ ∀ d ∈ dataOf (readLines v ls) n, WritesAll v n d ∧ OneLine v n d) ∨
      (OneLineOf v ls n ∧ KeepsAll v n (attrsOf (readLines v ls) n) ∧ OneCommand (textOf (readLines v ls) n)) ∨ StableText v n (textOf (readLines v ls) n))
    (hR : ∀ n, textOf (readLines v ls) n ≠ [] → ∀ a ∈ rivals n, textOf (readLines v ls) a = []) (k : Nat) :
    let r := runCommands Handler.dispatch k (lineItems (readLines v ls).str) (newHandler v)
    r.2 = none ∧ r.1.str = (readLines v ls).str := by
  refine C77_file hv hl ls (fun n c hc hp hu hf => ?_) hR k
  by_cases h1 : WordSettings v n (attrsOf (readLines v ls) n)
  · exact .inr (.inr (C78_restores hv (readLines_session v ls) h1).1)
  by_cases h2 : textOf (readLines v ls) n = [] ∧ c.str c.new.inst = []
  · rw [h2.1]
    exact .inr (.inr (empty_stable hv hc h2.2))
  · exact hst n c hc hp hu hf h1 h2

/-! ### The hypotheses can be met -/

/-- A file of the four commands, one of them repeated. -/
def wordFile : List (Nat × List Str × Str) :=
  [(1, [c!"lang", c!"cs_CZ", c!"--addsupport=en_US,de_DE"], []), (2, [c!"keyboard", c!"--vckeymap=cz", c!"--xlayouts=cz (qwerty),us", c!"--switch=grp:alt_shift_toggle"], []),
   (3, [c!"timezone", c!"Europe/Prague"], []), (4, [c!"timezone", c!"--ntpservers=a,b", c!"Europe/Brno", c!"--isUtc"], []), (5, [c!"rootpw", c!"a#b c", c!"--lock"], []), (6, [c!"lang"], [])]

theorem wordFile_text :
    (readLines Version.F34 wordFile).str =
      c!"# Keyboard layouts\nkeyboard --vckeymap=cz --xlayouts='cz (qwerty)','us' --switch='grp:alt_shift_toggle'\n# Root password\nrootpw --lock --plaintext \"a#b c\"\n# System language\nlang cs_CZ --addsupport=en_US,de_DE\n# System timezone\ntimezone Europe/Brno --utc --ntpservers=a,b\n# System bootloader configuration\nbootloader --location=none\n" := by decide +kernel

instance (w : Str) : Decidable (CleanElem w) := by
  unfold CleanElem
  have : Decidable (Trimmed w) := decidable_of_iff ((w.head?.all fun c => !isSpace c) = true ∧ (w.getLast?.all fun c => !isSpace c) = true) (by
    unfold Trimmed
    cases w.head? <;> cases w.getLast? <;> simp)
  infer_instance

instance (w : Str) : Decidable (QuoteElem w) := by unfold QuoteElem NoBreak; infer_instance
instance (w : Str) : Decidable (PlainPassword w) := by unfold PlainPassword; infer_instance

theorem wordFile_attrs :
    let h := readLines Version.F34 wordFile
    ((attrsOf h c!"lang").getD c!"lang" = .str c!"cs_CZ" ∧ (attrsOf h c!"lang").getD c!"addsupport" = .list [c!"en_US", c!"de_DE"]) ∧
    ((attrsOf h c!"keyboard").getD c!"_keyboard" = .str [] ∧ (attrsOf h c!"keyboard").getD c!"vc_keymap" = .str c!"cz" ∧ (attrsOf h c!"keyboard").getD c!"x_layouts" = .list [c!"cz (qwerty)", c!"us"] ∧
      (attrsOf h c!"keyboard").getD c!"switch_options" = .list [c!"grp:alt_shift_toggle"]) ∧
    ((attrsOf h c!"timezone").getD c!"timezone" = .str c!"Europe/Brno" ∧ (attrsOf h c!"timezone").getD c!"isUtc" = .bool true ∧ (attrsOf h c!"timezone").getD c!"nontp" = .bool false ∧
      (attrsOf h c!"timezone").getD c!"ntpservers" = .list [c!"a", c!"b"]) ∧
    (attrsOf h c!"rootpw").getD c!"password" = .str c!"a#b c" := by decide +kernel

theorem wordFile_settings : ∀ n ∈ [c!"lang", c!"keyboard", c!"timezone", c!"rootpw"], WordSettings Version.F34 n (attrsOf (readLines Version.F34 wordFile) n) := by
  obtain ⟨⟨l1, l2⟩, ⟨k1, k2, k3, k4⟩, ⟨t1, t2, t3, t4⟩, p1⟩ := wordFile_attrs
  generalize readLines Version.F34 wordFile = h at *
  have q : (∀ x ∈ [c!"cz (qwerty)", c!"us"], QuoteElem x) ∧ (∀ x ∈ [c!"grp:alt_shift_toggle"], QuoteElem x) ∧ PlainPassword c!"a#b c" := by decide +kernel
  intro n hn
  simp only [List.mem_cons, List.not_mem_nil, or_false] at hn
  rcases hn with rfl | rfl | rfl | rfl
  · exact .inl ⟨rfl, _, _, by decide, by decide, l1, .inl l2⟩
  · exact .inr (.inr (.inr (.inl ⟨rfl, by decide, _, _, _, ⟨by rw [k1]; rfl, .inl k2, .inl k3, .inl k4⟩, .inl (by decide), by decide, q.1, q.2.1⟩)))
  · exact .inr (.inr (.inr (.inr (.inr (.inr ⟨rfl, _, true, false, _, ⟨.inl t1, by rw [t2]; rfl, by rw [t3]; rfl, .inl t4⟩, .inl (by decide), by decide, .inl rfl, by decide⟩)))))
  · exact .inr (.inr (.inr (.inr (.inl ⟨rfl, _, q.2.2, p1⟩))))

theorem wordFile_rest : (commandMap Version.F34).all (fun x => decide (Unread (readLines Version.F34 wordFile) x.1) || [c!"lang", c!"keyboard", c!"timezone", c!"rootpw"].contains x.1) = true := by decide +kernel

/-- Settings of older versions. -/
def wordLines : List (Nat × List Str × Str) :=
  [(Version.FC3, [c!"timezone", c!"--utc", c!"UTC"], c!"# System timezone\ntimezone --utc UTC\n"), (Version.FC6, [c!"timezone", c!"UTC"], c!"# System timezone\ntimezone  UTC\n"),
   (Version.F18, [c!"timezone", c!"UTC", c!"--ntpservers=a,a"], c!"# System timezone\ntimezone UTC --ntpservers=a\n"), (Version.F25, [c!"timezone", c!"--nontp"], c!"# System timezone\ntimezone --nontp\n"),
   (Version.F7, [c!"rootpw", c!"--iscrypted", c!"$1$x"], c!"# Root password\nrootpw --iscrypted $1$x\n"), (Version.F34, [c!"rootpw", c!"--lock"], c!"#Root password\nrootpw --lock\n"),
   (Version.F34, [c!"keyboard", c!"a b"], c!"# Keyboard layouts\nkeyboard 'a b'\n"), (Version.F17, [c!"keyboard", c!"us"], c!"# System keyboard\nkeyboard us\n"),
   (Version.F18, [c!"lang", c!"de"], c!"# System language\nlang de\n")]

theorem wordLines_all : wordLines.all (fun p => decide (textOf (readLines p.1 [(1, p.2.1, [])]) (p.2.1.headD []) = p.2.2)) = true := by decide +kernel

/-- A plain word is needed: before F18 `keyboard` writes the name without quotes, and a name of two words is refused (/repo/pykickstart/commands/keyboard.py:38-44). -/
theorem C78_two_words :
    let h := readLines Version.F17 [(1, [c!"keyboard", c!"a b"], [])]
    textOf h c!"keyboard" = c!"# System keyboard\nkeyboard a b\n" ∧ ¬ StableText Version.F17 c!"keyboard" (textOf h c!"keyboard") := by decide +kernel

/-- With a layout in both formats, the first text has comments that the second does not have (/repo/pykickstart/commands/keyboard.py:73-87). -/
theorem C78_old_format :
    let h := readLines Version.F34 [(1, [c!"keyboard", c!"us", c!"--vckeymap=us"], [])]
    textOf h c!"keyboard" = c!"# Keyboard layouts\n# old format: keyboard us\n# new format:\nkeyboard --vckeymap=us\n" ∧ ¬ StableText Version.F34 c!"keyboard" (textOf h c!"keyboard") := by decide +kernel

/-- A password with a quotation mark or a blank is written so that it is refused or changed (/repo/pykickstart/commands/rootpw.py:48-61). -/
theorem C78_password :
    let h := readLines Version.F34 [(1, [c!"rootpw", c!"a\"b"], [])]
    let g := readLines Version.F34 [(1, [c!"rootpw", c!"a b"], [])]
    textOf h c!"rootpw" = c!"# Root password\nrootpw --plaintext a\"b\n" ∧ ¬ StableText Version.F34 c!"rootpw" (textOf h c!"rootpw") ∧
    textOf g c!"rootpw" = c!"# Root password\nrootpw --plaintext a b\n" ∧ ¬ StableText Version.F34 c!"rootpw" (textOf g c!"rootpw") := by decide +kernel

/-- From F18, options for switching that are given with a keyboard name are not written (/repo/pykickstart/commands/keyboard.py:73-107), so the text is stable but they are lost. -/
theorem C78_switch :
    let h := readLines Version.F34 [(1, [c!"keyboard", c!"us", c!"--switch=grp:alt_shift_toggle"], [])]
    textOf h c!"keyboard" = c!"# Keyboard layouts\nkeyboard 'us'\n" ∧ (attrsOf h c!"keyboard").getD c!"switch_options" = .list [c!"grp:alt_shift_toggle"] ∧
    (attrsOf (runCommands Handler.dispatch 0 (lineItems (textOf h c!"keyboard")) (newHandler Version.F34)).1 c!"keyboard").getD c!"switch_options" = .list [] := by decide +kernel

end Ks
