import Verif.OptLemmas
import Verif.Document
/-!
# The header line of `%packages`, option by option and version by version
-/
namespace Ks
/-! ## C22: the header -/

/-- The versions at which the header's syntax changes. -/
def pkgRep (v : Nat) : Nat :=
  if v < Version.F7 then 0 else if v < Version.F9 then Version.F7 else if v < Version.RHEL6 then Version.F9
  else if v < Version.F18 then Version.RHEL6 else if v < Version.F21 then Version.F18 else if v < Version.RHEL7 then Version.F21
  else if v < Version.F22 then Version.RHEL7 else if v < Version.F24 then Version.F22 else if v < Version.F32 then Version.F24
  else Version.F32

theorem pkgRep_cases (v : Nat) (P : Nat → Prop) (h : ∀ r ∈ [0, Version.F7, Version.F9, Version.RHEL6, Version.F18, Version.F21, Version.RHEL7,
    Version.F22, Version.F24, Version.F32], P r) : P (pkgRep v) := by
  apply h
  unfold pkgRep
  repeat' split
  all_goals simp

/-- An option of a `%packages` header that `Packages.__str__` writes. -/
inductive PkgOpt
  | default | excludedocs | nobase | nocore | ignoremissing | ignorebroken
  | instLangs (s : Str)
  | multilib | weakdeps
  | timeout (n : Int) | retries (n : Int)
  deriving DecidableEq

/-- How it is written. -/
def PkgOpt.tok : PkgOpt → Tok
  | .default => ⟨c!"--default", none⟩
  | .excludedocs => ⟨c!"--excludedocs", none⟩
  | .nobase => ⟨c!"--nobase", none⟩
  | .nocore => ⟨c!"--nocore", none⟩
  | .ignoremissing => ⟨c!"--ignoremissing", none⟩
  | .ignorebroken => ⟨c!"--ignorebroken", none⟩
  | .instLangs s => ⟨c!"--inst-langs", some s⟩
  | .multilib => ⟨c!"--multilib", none⟩
  | .weakdeps => ⟨c!"--exclude-weakdeps", none⟩
  | .timeout n => ⟨c!"--timeout", some (intStr n)⟩
  | .retries n => ⟨c!"--retries", some (intStr n)⟩

def PkgOpt.kv : PkgOpt → Str × Val
  | .default => (c!"defaultPackages", .bool true)
  | .excludedocs => (c!"excludedocs", .bool true)
  | .nobase => (c!"nobase", .bool true)
  | .nocore => (c!"nocore", .bool true)
  | .ignoremissing => (c!"ignoremissing", .bool true)
  | .ignorebroken => (c!"ignorebroken", .bool true)
  | .instLangs s => (c!"instLangs", .str s)
  | .multilib => (c!"multiLib", .bool true)
  | .weakdeps => (c!"excludeWeakdeps", .bool true)
  | .timeout n => (c!"timeout", .int n)
  | .retries n => (c!"retries", .int n)

/-- The versions whose syntax has the option. -/
def PkgOpt.Known (v : Nat) : PkgOpt → Prop
  | .default => Version.F7 ≤ v
  | .excludedocs => True
  | .nobase => Version.RHEL6 ≤ v ∧ v < Version.F22
  | .nocore => Version.F21 ≤ v
  | .ignoremissing => True
  | .ignorebroken => Version.F32 ≤ v
  | .instLangs _ => Version.F9 ≤ v
  | .multilib => Version.F18 ≤ v
  | .weakdeps => Version.F24 ≤ v
  | .timeout _ => Version.RHEL7 ≤ v
  | .retries _ => Version.RHEL7 ≤ v

theorem tyInt_intStr (n : Int) : tyInt (intStr n) = .ok (.int n) := by
  unfold tyInt; rw [pyInt_intStr]

theorem packagesParser_rep (v : Nat) : packagesParser v = packagesParser (pkgRep v) := by
  unfold pkgRep
  repeat' split
  all_goals
    unfold packagesParser
    simp +decide only [*, if_true, if_false]
  all_goals first | rfl | (split <;> first | rfl | (exfalso; simp only [Version.F7, Version.F9, Version.RHEL6] at *; omega))


theorem pkgRep_le {v r : Nat} (hr : r ∈ [Version.F7, Version.F9, Version.RHEL6, Version.F18, Version.F21, Version.RHEL7,
    Version.F22, Version.F24, Version.F32]) : r ≤ v ↔ r ≤ pkgRep v := by
  simp only [List.mem_cons, List.not_mem_nil, or_false] at hr
  unfold pkgRep
  by_cases h1 : v < Version.F7
  · rw [if_pos h1]; simp only [Version.F7, Version.F9, Version.RHEL6, Version.F18, Version.F21, Version.RHEL7, Version.F22, Version.F24, Version.F32] at *; omega
  rw [if_neg h1]
  by_cases h2 : v < Version.F9
  · rw [if_pos h2]; simp only [Version.F7, Version.F9, Version.RHEL6, Version.F18, Version.F21, Version.RHEL7, Version.F22, Version.F24, Version.F32] at *; omega
  rw [if_neg h2]
  by_cases h3 : v < Version.RHEL6
  · rw [if_pos h3]; simp only [Version.F7, Version.F9, Version.RHEL6, Version.F18, Version.F21, Version.RHEL7, Version.F22, Version.F24, Version.F32] at *; omega
  rw [if_neg h3]
  by_cases h4 : v < Version.F18
  · rw [if_pos h4]; simp only [Version.F7, Version.F9, Version.RHEL6, Version.F18, Version.F21, Version.RHEL7, Version.F22, Version.F24, Version.F32] at *; omega
  rw [if_neg h4]
  by_cases h5 : v < Version.F21
  · rw [if_pos h5]; simp only [Version.F7, Version.F9, Version.RHEL6, Version.F18, Version.F21, Version.RHEL7, Version.F22, Version.F24, Version.F32] at *; omega
  rw [if_neg h5]
  by_cases h6 : v < Version.RHEL7
  · rw [if_pos h6]; simp only [Version.F7, Version.F9, Version.RHEL6, Version.F18, Version.F21, Version.RHEL7, Version.F22, Version.F24, Version.F32] at *; omega
  rw [if_neg h6]
  by_cases h7 : v < Version.F22
  · rw [if_pos h7]; simp only [Version.F7, Version.F9, Version.RHEL6, Version.F18, Version.F21, Version.RHEL7, Version.F22, Version.F24, Version.F32] at *; omega
  rw [if_neg h7]
  by_cases h8 : v < Version.F24
  · rw [if_pos h8]; simp only [Version.F7, Version.F9, Version.RHEL6, Version.F18, Version.F21, Version.RHEL7, Version.F22, Version.F24, Version.F32] at *; omega
  rw [if_neg h8]
  by_cases h9 : v < Version.F32
  · rw [if_pos h9]; simp only [Version.F7, Version.F9, Version.RHEL6, Version.F18, Version.F21, Version.RHEL7, Version.F22, Version.F24, Version.F32] at *; omega
  rw [if_neg h9]
  simp only [Version.F7, Version.F9, Version.RHEL6, Version.F18, Version.F21, Version.RHEL7, Version.F22, Version.F24, Version.F32] at *; omega

theorem known_rep {v : Nat} {o : PkgOpt} (h : o.Known v) : o.Known (pkgRep v) := by
  cases o with
  | excludedocs => trivial
  | ignoremissing => trivial
  | nobase => exact ⟨(pkgRep_le (by simp)).1 h.1, Nat.lt_of_not_le fun h' => Nat.not_le_of_lt h.2 ((pkgRep_le (by simp)).2 h')⟩
  | _ => exact (pkgRep_le (by simp)).1 h

theorem packagesParser_eats {l : Option Int} {v : Nat} {o : PkgOpt} (h : o.Known v) : (packagesParser v).Eats l o.tok o.kv := by
  rw [packagesParser_rep]
  have h := known_rep h
  revert h
  apply pkgRep_cases v (fun r => o.Known r → (packagesParser r).Eats l o.tok o.kv)
  intro r hr h
  simp only [List.mem_cons, List.not_mem_nil, or_false] at hr
  rcases hr with rfl | rfl | rfl | rfl | rfl | rfl | rfl | rfl | rfl | rfl
  all_goals
    cases o
    all_goals first
      | (exact absurd h (by simp only [PkgOpt.Known]; decide))
      | eat_flag
      | eat_value
      | eat_by (tyInt_intStr _)

theorem packagesParser_built (v : Nat) : (packagesParser v).Built := by
  rw [packagesParser_rep]
  apply pkgRep_cases v (fun r => (packagesParser r).Built)
  intro r hr
  simp only [List.mem_cons, List.not_mem_nil, or_false] at hr
  rcases hr with rfl | rfl | rfl | rfl | rfl | rfl | rfl | rfl | rfl | rfl
  all_goals
    unfold packagesParser OptParser.addAll
    simp +decide only [List.foldl_cons, List.foldl_nil, if_true, if_false]
    repeat (first | exact .empty | refine OptParser.Built.add ?_ (by decide) | refine OptParser.Built.remove _ ?_)

theorem packagesParser_plain (v : Nat) : (packagesParser v).initSt.positionals = [] ∧ (∀ a ∈ (packagesParser v).actions, a.required = false) ∧
    (∀ a ∈ (packagesParser v).actions, ∀ s, a.default ≠ .str s) := by
  rw [packagesParser_rep]
  apply pkgRep_cases v (fun r => (packagesParser r).initSt.positionals = [] ∧ (∀ a ∈ (packagesParser r).actions, a.required = false) ∧
    (∀ a ∈ (packagesParser r).actions, ∀ s, a.default ≠ .str s))
  intro r hr
  have h : ∀ r ∈ [0, Version.F7, Version.F9, Version.RHEL6, Version.F18, Version.F21, Version.RHEL7, Version.F22, Version.F24, Version.F32],
      ((packagesParser r).initSt.positionals.isEmpty && (packagesParser r).actions.all fun a => !a.required && match a.default with | .str _ => false | _ => true) = true := by
    decide +kernel
  have h := h r hr
  simp only [Bool.and_eq_true, List.isEmpty_iff, List.all_eq_true, Bool.not_eq_true'] at h
  refine ⟨h.1, fun a ha => (h.2 a ha).1, fun a ha s e => ?_⟩
  have := (h.2 a ha).2
  rw [e] at this
  cases this

/-- The options written for a selection, in order. -/
def Packages.opts (p : Packages) : List PkgOpt :=
  (if p.default then [.default] else []) ++ (if p.excludeDocs then [.excludedocs] else []) ++ (if ¬ p.addBase then [.nobase] else [])
  ++ (if p.nocore then [.nocore] else []) ++ (if p.ignoreMissing then [.ignoremissing] else []) ++ (if p.ignoreBroken then [.ignorebroken] else [])
  ++ (match p.instLangs with | some s => [.instLangs s] | none => []) ++ (if p.multiLib then [.multilib] else [])
  ++ (if p.excludeWeakdeps then [.weakdeps] else []) ++ (match p.timeout with | some n => [.timeout n] | none => [])
  ++ (match p.retries with | some n => [.retries n] | none => [])

theorem headerOpts_eq (p : Packages) : p.headerOpts = ((p.opts.map (·.tok.text)).map (c!" " ++ ·)).flatten := by
  have h1 : ∀ (c : Prop) [Decidable c] (o : PkgOpt), ((((if c then [o] else []).map (fun o : PkgOpt => o.tok.text))).map (c!" " ++ ·)).flatten = if c then c!" " ++ o.tok.text else [] := by
    intro c _ o; split <;> simp
  unfold Packages.headerOpts Packages.opts
  simp only [List.map_append, List.flatten_append, h1]
  cases p.instLangs <;> cases p.timeout <;> cases p.retries <;> simp [PkgOpt.tok, Tok.text, valText]

theorem mem_opts_flag (p : Packages) (o : PkgOpt) : o ∈ p.opts ↔ match o with
    | .default => p.default = true
    | .excludedocs => p.excludeDocs = true
    | .nobase => p.addBase = false
    | .nocore => p.nocore = true
    | .ignoremissing => p.ignoreMissing = true
    | .ignorebroken => p.ignoreBroken = true
    | .instLangs s => p.instLangs = some s
    | .multilib => p.multiLib = true
    | .weakdeps => p.excludeWeakdeps = true
    | .timeout n => p.timeout = some n
    | .retries n => p.retries = some n := by
  have h1 : ∀ (c : Prop) [Decidable c] (o' : PkgOpt), (o ∈ if c then [o'] else []) ↔ c ∧ o = o' := by
    intro c _ o'; split <;> simp [*]
  have h2 : o ∈ (match p.instLangs with | some s => [PkgOpt.instLangs s] | none => []) ↔ ∃ s, p.instLangs = some s ∧ o = .instLangs s := by
    cases p.instLangs <;> simp
  have h3 : o ∈ (match p.timeout with | some s => [PkgOpt.timeout s] | none => []) ↔ ∃ s, p.timeout = some s ∧ o = .timeout s := by
    cases p.timeout <;> simp
  have h4 : o ∈ (match p.retries with | some s => [PkgOpt.retries s] | none => []) ↔ ∃ s, p.retries = some s ∧ o = .retries s := by
    cases p.retries <;> simp
  unfold Packages.opts
  simp only [List.mem_append, h1, h2, h3, h4]
  cases o <;> simp

/-- The options used are known to the version, and `--default` is not combined with `--nobase` or `--nocore`. -/
structure Packages.Supported (v : Nat) (p : Packages) : Prop where
  known : ∀ o ∈ p.opts, o.Known v
  single : p.default = true → p.addBase = true ∧ p.nocore = false

theorem packages_parse {v : Nat} {p : Packages} (h : p.Supported v) (l : Option Int) :
    (packagesParser v).parseArgs l (p.opts.map (·.tok.text)) = .ok ((packagesParser v).defaults.setAll (p.opts.map PkgOpt.kv)) := by
  have := parseArgs_eats (l := l) (packagesParser_built v).wf (packagesParser_plain v).1 (ts := p.opts.map fun o => (o.tok, o.kv))
    (fun x hx => by obtain ⟨o, ho, rfl⟩ := List.mem_map.1 hx; exact packagesParser_eats (h.known o ho))
    (fun a ha hr => by rw [(packagesParser_plain v).2.1 a ha] at hr; cases hr)
    (fun a ha s hs => absurd hs ((packagesParser_plain v).2.2 a ha s))
  simpa [List.map_map, Function.comp_def] using this

theorem pkgDefaults (v : Nat) {k : Str} (hk : k ∈ [c!"defaultPackages", c!"excludedocs", c!"nobase", c!"nocore", c!"ignoremissing", c!"ignorebroken", c!"instLangs",
    c!"multiLib", c!"excludeWeakdeps", c!"timeout", c!"retries"]) :
    (packagesParser v).defaults.get k = none ∨ (packagesParser v).defaults.get k = some .none ∨ (packagesParser v).defaults.get k = some (.bool false) := by
  rw [packagesParser_rep]
  apply pkgRep_cases v (fun r => (packagesParser r).defaults.get k = none ∨ (packagesParser r).defaults.get k = some .none ∨ (packagesParser r).defaults.get k = some (.bool false))
  intro r hr
  revert r k
  decide +kernel

theorem pkg_flag {v : Nat} {p : Packages} {o : PkgOpt} {k : Str} (hk : k ∈ [c!"defaultPackages", c!"excludedocs", c!"nobase", c!"nocore", c!"ignoremissing", c!"ignorebroken", c!"instLangs",
    c!"multiLib", c!"excludeWeakdeps", c!"timeout", c!"retries"]) (ho : o.kv = (k, .bool true)) (hu : ∀ o' : PkgOpt, o'.kv.1 = k → o' = o) {b : Bool} (hb : o ∈ p.opts ↔ b = true) :
    ((packagesParser v).defaults.setAll (p.opts.map PkgOpt.kv)).flag k = b := by
  unfold Ns.flag Ns.getD
  cases b with
  | true =>
    rw [Ns.get_setAll_some (v := .bool true)]
    · rfl
    · exact List.mem_map.2 ⟨o, hb.2 rfl, ho⟩
    · intro kv hkv e
      obtain ⟨o', ho', rfl⟩ := List.mem_map.1 hkv
      rw [hu o' e, ho]
  | false =>
    rw [Ns.get_setAll_none]
    · rcases pkgDefaults v hk with h | h | h <;> rw [h] <;> rfl
    · intro kv hkv e
      obtain ⟨o', ho', rfl⟩ := List.mem_map.1 hkv
      rw [hu o' e] at ho'
      exact absurd (hb.1 ho') (by simp)

/-- Reading the written header gives the header attributes back. -/
theorem packages_header {v : Nat} {p : Packages} (h : p.Supported v) (n : Nat) :
    ({} : Packages).header v n (p.opts.map (·.tok.text)) =
      ({ seen := true, default := p.default, excludeDocs := p.excludeDocs, addBase := p.addBase, nocore := p.nocore,
         ignoreMissing := p.ignoreMissing, ignoreBroken := p.ignoreBroken, instLangs := p.instLangs, multiLib := p.multiLib,
         excludeWeakdeps := p.excludeWeakdeps, timeout := p.timeout, retries := p.retries }, none) := by
  unfold Packages.header
  rw [packages_parse h]
  simp only
  have f1 := pkg_flag (v := v) (p := p) (o := .default) (k := c!"defaultPackages") (by decide) rfl (fun o' e => by cases o' <;> first | rfl | exact absurd e (by simp [PkgOpt.kv])) (mem_opts_flag p .default)
  have f2 := pkg_flag (v := v) (p := p) (o := .excludedocs) (k := c!"excludedocs") (by decide) rfl (fun o' e => by cases o' <;> first | rfl | exact absurd e (by simp [PkgOpt.kv])) (mem_opts_flag p .excludedocs)
  have f3 := pkg_flag (v := v) (p := p) (o := .nobase) (k := c!"nobase") (b := !p.addBase) (by decide) rfl (fun o' e => by cases o' <;> first | rfl | exact absurd e (by simp [PkgOpt.kv])) ((mem_opts_flag p .nobase).trans (by simp))
  have f4 := pkg_flag (v := v) (p := p) (o := .nocore) (k := c!"nocore") (by decide) rfl (fun o' e => by cases o' <;> first | rfl | exact absurd e (by simp [PkgOpt.kv])) (mem_opts_flag p .nocore)
  have f5 := pkg_flag (v := v) (p := p) (o := .ignoremissing) (k := c!"ignoremissing") (by decide) rfl (fun o' e => by cases o' <;> first | rfl | exact absurd e (by simp [PkgOpt.kv])) (mem_opts_flag p .ignoremissing)
  have f6 := pkg_flag (v := v) (p := p) (o := .ignorebroken) (k := c!"ignorebroken") (by decide) rfl (fun o' e => by cases o' <;> first | rfl | exact absurd e (by simp [PkgOpt.kv])) (mem_opts_flag p .ignorebroken)
  have f7 := pkg_flag (v := v) (p := p) (o := .multilib) (k := c!"multiLib") (by decide) rfl (fun o' e => by cases o' <;> first | rfl | exact absurd e (by simp [PkgOpt.kv])) (mem_opts_flag p .multilib)
  have f8 := pkg_flag (v := v) (p := p) (o := .weakdeps) (k := c!"excludeWeakdeps") (by decide) rfl (fun o' e => by cases o' <;> first | rfl | exact absurd e (by simp [PkgOpt.kv])) (mem_opts_flag p .weakdeps)
  have f9 : ((packagesParser v).defaults.setAll (p.opts.map PkgOpt.kv)).str? c!"instLangs" = p.instLangs := by
    unfold Ns.str? Ns.getD
    cases hi : p.instLangs with
    | some s =>
      rw [Ns.get_setAll_some (v := .str s)]
      · rfl
      · exact List.mem_map.2 ⟨.instLangs s, (mem_opts_flag p _).2 hi, rfl⟩
      · intro kv hkv e
        obtain ⟨o', ho', rfl⟩ := List.mem_map.1 hkv
        cases o' <;> first | (exfalso; revert e; simp [PkgOpt.kv]; done) | skip
        have := (mem_opts_flag p _).1 ho'
        simp only [hi, Option.some.injEq] at this
        rw [this]; rfl
    | none =>
      rw [Ns.get_setAll_none]
      · rcases pkgDefaults v (k := c!"instLangs") (by decide) with h | h | h <;> rw [h] <;> rfl
      · intro kv hkv e
        obtain ⟨o', ho', rfl⟩ := List.mem_map.1 hkv
        cases o' <;> first | (exfalso; revert e; simp [PkgOpt.kv]; done) | skip
        have := (mem_opts_flag p _).1 ho'
        simp [hi] at this
  have f10 : ((packagesParser v).defaults.setAll (p.opts.map PkgOpt.kv)).int? c!"timeout" = p.timeout := by
    unfold Ns.int? Ns.getD
    cases hi : p.timeout with
    | some s =>
      rw [Ns.get_setAll_some (v := .int s)]
      · rfl
      · exact List.mem_map.2 ⟨.timeout s, (mem_opts_flag p _).2 hi, rfl⟩
      · intro kv hkv e
        obtain ⟨o', ho', rfl⟩ := List.mem_map.1 hkv
        cases o' <;> first | (exfalso; revert e; simp [PkgOpt.kv]; done) | skip
        have := (mem_opts_flag p _).1 ho'
        simp only [hi, Option.some.injEq] at this
        rw [this]; rfl
    | none =>
      rw [Ns.get_setAll_none]
      · rcases pkgDefaults v (k := c!"timeout") (by decide) with h | h | h <;> rw [h] <;> rfl
      · intro kv hkv e
        obtain ⟨o', ho', rfl⟩ := List.mem_map.1 hkv
        cases o' <;> first | (exfalso; revert e; simp [PkgOpt.kv]; done) | skip
        have := (mem_opts_flag p _).1 ho'
        simp [hi] at this
  have f11 : ((packagesParser v).defaults.setAll (p.opts.map PkgOpt.kv)).int? c!"retries" = p.retries := by
    unfold Ns.int? Ns.getD
    cases hi : p.retries with
    | some s =>
      rw [Ns.get_setAll_some (v := .int s)]
      · rfl
      · exact List.mem_map.2 ⟨.retries s, (mem_opts_flag p _).2 hi, rfl⟩
      · intro kv hkv e
        obtain ⟨o', ho', rfl⟩ := List.mem_map.1 hkv
        cases o' <;> first | (exfalso; revert e; simp [PkgOpt.kv]; done) | skip
        have := (mem_opts_flag p _).1 ho'
        simp only [hi, Option.some.injEq] at this
        rw [this]; rfl
    | none =>
      rw [Ns.get_setAll_none]
      · rcases pkgDefaults v (k := c!"retries") (by decide) with h | h | h <;> rw [h] <;> rfl
      · intro kv hkv e
        obtain ⟨o', ho', rfl⟩ := List.mem_map.1 hkv
        cases o' <;> first | (exfalso; revert e; simp [PkgOpt.kv]; done) | skip
        have := (mem_opts_flag p _).1 ho'
        simp [hi] at this
  generalize (packagesParser v).defaults.setAll (p.opts.map PkgOpt.kv) = ns at *
  have k1 : v < Version.F7 → p.default = false := fun hv => by
    cases e : p.default with
    | false => rfl
    | true => exact absurd (h.known .default ((mem_opts_flag p _).2 e)) (Nat.not_le_of_lt hv)
  have k2 : v < Version.F9 → p.instLangs = none := fun hv => by
    cases e : p.instLangs with
    | none => rfl
    | some s => exact absurd (h.known (.instLangs s) ((mem_opts_flag p _).2 e)) (Nat.not_le_of_lt hv)
  have k3 : v < Version.RHEL6 → p.addBase = true := fun hv => by
    cases e : p.addBase with
    | true => rfl
    | false => exact absurd (h.known .nobase ((mem_opts_flag p _).2 e)).1 (Nat.not_le_of_lt hv)
  have k4 : v < Version.F18 → p.multiLib = false := fun hv => by
    cases e : p.multiLib with
    | false => rfl
    | true => exact absurd (h.known .multilib ((mem_opts_flag p _).2 e)) (Nat.not_le_of_lt hv)
  have k5 : v < Version.F21 → p.nocore = false := fun hv => by
    cases e : p.nocore with
    | false => rfl
    | true => exact absurd (h.known .nocore ((mem_opts_flag p _).2 e)) (Nat.not_le_of_lt hv)
  have k6 : v < Version.RHEL7 → p.timeout = none := fun hv => by
    cases e : p.timeout with
    | none => rfl
    | some s => exact absurd (h.known (.timeout s) ((mem_opts_flag p _).2 e)) (Nat.not_le_of_lt hv)
  have k7 : v < Version.RHEL7 → p.retries = none := fun hv => by
    cases e : p.retries with
    | none => rfl
    | some s => exact absurd (h.known (.retries s) ((mem_opts_flag p _).2 e)) (Nat.not_le_of_lt hv)
  have k8 : v < Version.F24 → p.excludeWeakdeps = false := fun hv => by
    cases e : p.excludeWeakdeps with
    | false => rfl
    | true => exact absurd (h.known .weakdeps ((mem_opts_flag p _).2 e)) (Nat.not_le_of_lt hv)
  have k9 : v < Version.F32 → p.ignoreBroken = false := fun hv => by
    cases e : p.ignoreBroken with
    | false => rfl
    | true => exact absurd (h.known .ignorebroken ((mem_opts_flag p _).2 e)) (Nat.not_le_of_lt hv)
  have c1 : ¬ (p.default = true ∧ (!p.addBase) = true) := fun ⟨a, b⟩ => by simp [(h.single a).1] at b
  have c2 : ¬ (p.default = true ∧ p.nocore = true) := fun ⟨a, b⟩ => by simp [(h.single a).2] at b
  unfold Packages.setHeader
  simp only [f1, f2, f3, f4, f5, f6, f7, f8, f9, f10, f11, if_neg c1, if_neg c2]
  have mono : ∀ {a b : Nat}, a ≤ b → v < a → v < b := fun h h' => Nat.lt_of_lt_of_le h' h
  by_cases v1 : v < Version.F7
  · have := mono (b := Version.F9) (by decide) v1; have := mono (b := Version.RHEL6) (by decide) v1
    have := mono (b := Version.F18) (by decide) v1; have := mono (b := Version.F21) (by decide) v1
    have := mono (b := Version.RHEL7) (by decide) v1; have := mono (b := Version.F24) (by decide) v1
    have := mono (b := Version.F32) (by decide) v1
    cases hd : p.default <;> cases hi : p.instLangs <;> simp_all
  rw [if_neg v1]
  by_cases v2 : v < Version.F9
  · have := mono (b := Version.RHEL6) (by decide) v2
    have := mono (b := Version.F18) (by decide) v2; have := mono (b := Version.F21) (by decide) v2
    have := mono (b := Version.RHEL7) (by decide) v2; have := mono (b := Version.F24) (by decide) v2
    have := mono (b := Version.F32) (by decide) v2
    rw [if_pos v2]
    cases hd : p.default <;> cases hi : p.instLangs <;> simp_all
  rw [if_neg v2]
  by_cases v3 : v < Version.RHEL6
  · have := mono (b := Version.F18) (by decide) v3; have := mono (b := Version.F21) (by decide) v3
    have := mono (b := Version.RHEL7) (by decide) v3; have := mono (b := Version.F24) (by decide) v3
    have := mono (b := Version.F32) (by decide) v3
    rw [if_pos v3]
    cases hd : p.default <;> cases hi : p.instLangs <;> simp_all
  rw [if_neg v3]
  by_cases v4 : v < Version.F18
  · have := mono (b := Version.F21) (by decide) v4
    have := mono (b := Version.RHEL7) (by decide) v4; have := mono (b := Version.F24) (by decide) v4
    have := mono (b := Version.F32) (by decide) v4
    rw [if_pos v4]
    cases hd : p.default <;> cases hi : p.instLangs <;> simp_all
  rw [if_neg v4]
  by_cases v5 : v < Version.F21
  · have := mono (b := Version.RHEL7) (by decide) v5; have := mono (b := Version.F24) (by decide) v5
    have := mono (b := Version.F32) (by decide) v5
    rw [if_pos v5]
    cases hd : p.default <;> cases hi : p.instLangs <;> simp_all
  rw [if_neg v5]
  by_cases v6 : v < Version.RHEL7
  · have := mono (b := Version.F24) (by decide) v6
    have := mono (b := Version.F32) (by decide) v6
    rw [if_pos v6]
    cases hd : p.default <;> cases hi : p.instLangs <;> simp_all
  rw [if_neg v6]
  by_cases v7 : v < Version.F24
  · have := mono (b := Version.F32) (by decide) v7
    rw [if_pos v7]
    cases hd : p.default <;> cases hi : p.instLangs <;> simp_all
  rw [if_neg v7]
  by_cases v8 : v < Version.F32
  · rw [if_pos v8]
    cases hd : p.default <;> cases hi : p.instLangs <;> simp_all
  rw [if_neg v8]
  cases hd : p.default <;> cases hi : p.instLangs <;> simp_all

end Ks
