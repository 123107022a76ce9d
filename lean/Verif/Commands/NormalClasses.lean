import Verif.Commands.NormalSims
/-!
# The text of an object is read again: kinds of commands
-/
namespace Ks

variable {op : OptParser} {name : Str} {prio : Option Int} {cinit : Ns} {dc : DataCls} {parse : List Str → M Ns} {str : List Str → Str} {need fixed T : List Str} {o : Out}

/-- The word for a mount point. -/
def mountWords : List (List Sym) := [[.fr (.fld c!"mountpoint")]]

/-- Commands with a mount point. -/
theorem mount_normal (s : Sheet) (hparse : ∀ args n, M.Post n (parse args) (ParsedBy op dc.init T n args)) (hm : ∀ args n, M.Post n (parse args) (MountOf op n args))
    (hstr : ∀ d, dc.str d = o.render d) (hs : str = listStr ∨ ∃ hd, headingOk hd = true ∧ str = headedListStr hd)
    (hsim : ∀ args args', Follows op dc.init [] noWords args args' → M.Sim (Alike [c!"lineno"]) (parse args) (parse args'))
    (hT : ∀ k ∈ T, k ∈ s.skip ∧ k ∉ fixed) (hc : s.check op dc.init o = true)
    (hn : (normalCheck s need fixed [] [c!"mntpoint"] op dc.init mountWords o && mountOnly op && skipCheck s fixed op o) = true) :
    (listCmd name prio cinit dc parse str).Normal s need fixed (setToObj op.defaults dc.init) := by
  simp only [Bool.and_eq_true] at hn
  intro h args i d hd hp hL
  obtain ⟨d', e, hd'⟩ := list_value hd
  cases e
  exact list_normal ((hparse args i.lineno).run rfl hd') hstr hs hc hn.1.1 (fun k hk => (hT k hk).1) (fun k hk e => (hT k e).2 hk) (hsim args) hd (skip_ok hn.2 d)
    (fun ns ex hk => takes_mount (Sheet.check_wf hc) hn.1.2 hk (mount_word hn.1.2 ((hm args i.lineno).run rfl hd') hk)) hp hL

/-- Commands that take a word as it is. -/
theorem word_normal (s : Sheet) (w : List Sym) (hparse : ∀ args n, M.Post n (parse args) (ParsedBy op dc.init T n args))
    (hw : ∀ args n, M.Post n (parse args) fun d => ∀ ns ex, op.parseKnown (some (n : Int)) args = .ok (ns, ex) → ex = [wordOf d w])
    (hstr : ∀ d, dc.str d = o.render d) (hs : str = listStr ∨ ∃ hd, headingOk hd = true ∧ str = headedListStr hd)
    (hsim : ∀ args args', Follows op dc.init [] id args args' → M.Sim (Alike [c!"lineno"]) (parse args) (parse args'))
    (hT : ∀ k ∈ T, k ∈ s.skip ∧ k ∉ fixed) (hc : s.check op dc.init o = true)
    (hn : (normalCheck s need fixed [] [] op dc.init [w] o && optsOnly op && skipCheck s fixed op o) = true) :
    (listCmd name prio cinit dc parse str).Normal s need fixed (setToObj op.defaults dc.init) := by
  simp only [Bool.and_eq_true] at hn
  intro h args i d hd hp hL
  obtain ⟨d', e, hd'⟩ := list_value hd
  cases e
  refine list_normal ((hparse args i.lineno).run rfl hd') hstr hs hc hn.1.1 (fun k hk => (hT k hk).1) (fun k hk e => (hT k e).2 hk) (hsim args) hd (skip_ok hn.2 d)
    (fun ns ex hk => ?_) hp hL
  have := (hw args i.lineno).run rfl hd' ns ex hk
  have ho := hn.1.2
  unfold optsOnly at ho
  simp only [Bool.and_eq_true, List.isEmpty_iff, List.all_eq_true, Bool.or_eq_true, Bool.not_eq_true', List.isEmpty_eq_false_iff] at ho
  rw [this]
  refine takes_opts (Sheet.check_wf hc) ho.1.1 ho.1.2 (fun a ha hr => ?_) _ ns
  rcases ho.2 a ha with e | e
  · rw [hr] at e; cases e
  · exact e

/-! ## Logical volumes -/

/-- The same sheet with `preexist` read back. -/
def Sheet.withPreexist (s : Sheet) : Sheet :=
  { s with skip := s.skip.filter (· ≠ c!"preexist"), full := c!"preexist" :: s.full }

theorem lossless_withPreexist {s : Sheet} {base d : Ns} (hk : whenKept s.lossy c!"preexist" = .tt) (h : s.Lossless need fixed base d) :
    s.withPreexist.Lossless need fixed base d := by
  refine ⟨h.1, h.2.1, h.2.2.1, fun k hm hs => ?_⟩
  by_cases e : k = c!"preexist"
  · subst e
    right
    refine ⟨?_, .inl (by simp [Sheet.withPreexist])⟩
    change (whenKept s.lossy c!"preexist").eval d = true
    rw [hk]; rfl
  · rcases h.2.2.2 k hm (fun hs' => hs (List.mem_filter.2 ⟨hs', by simpa using e⟩)) with h | ⟨h1, h2⟩
    · exact .inl h
    · exact .inr ⟨h1, h2.imp_left fun h => List.mem_cons_of_mem _ h⟩

theorem ParsedBy.known {n : Nat} {args : List Str} {d : Ns} {init : Ns} (h : ParsedBy op init T n args d) {k : Str} (hk : k ∉ T) {l : Option Int} {ns : Ns} {ex : List Str}
    (h1 : op.parseKnown l args = .ok (ns, ex)) : d.get k = (setToObj ns init).get k := by
  obtain ⟨ns2, ex2, h2, h3⟩ := h
  rw [h3 k hk]
  rcases (parseKnown_lsame l (some (n : Int)) op args).cases with ⟨x, g1, g2⟩ | ⟨e, f, g1, -, -⟩
  · rw [g1] at h1; rw [g2] at h2
    injection h1 with h1; injection h2 with h2
    rw [h1] at h2; injection h2 with h2
    rw [h2]
  · rw [g1] at h1; cases h1

open Cmd in
/-- `logvol`: `preexist` is only read back if the volume is formatted. -/
theorem logvol_normal (s : Sheet) (hparse : ∀ args n, M.Post n (parse args) (ParsedBy op dc.init T n args)) (hm : ∀ args n, M.Post n (parse args) (MountOf op n args))
    (he : ∀ args n, M.Post n (parse args) (LvExists op dc.init n args))
    (hstr : ∀ d, dc.str d = o.render d) (hs : str = listStr ∨ ∃ hd, headingOk hd = true ∧ str = headedListStr hd)
    (hsim : ∀ args args', FollowsLv op dc.init args args' → M.Sim (Alike [c!"lineno"]) (parse args) (parse args'))
    (hT : ∀ k ∈ T, k ∈ s.skip ∧ k ∉ fixed ∧ k ≠ c!"format") (hT2 : ∀ k ∈ [c!"lineno", c!"mountpoint"], k ∈ s.withPreexist.skip ∧ k ∉ fixed)
    (hk : whenKept s.lossy c!"preexist" = .tt) (hc : s.check op dc.init o = true) (hc2 : s.withPreexist.check op dc.init o = true)
    (hn : (normalCheck s need fixed [c!"preexist"] [c!"mntpoint"] op dc.init mountWords o &&
      normalCheck s.withPreexist need fixed [] [c!"mntpoint"] op dc.init mountWords o && mountOnly op && skipCheck s fixed op o && skipCheck s.withPreexist fixed op o) = true) :
    (listCmd name prio cinit dc parse str).Normal s need fixed (setToObj op.defaults dc.init) := by
  simp only [Bool.and_eq_true] at hn
  obtain ⟨⟨⟨⟨hn1, hn2⟩, hmo⟩, hs1⟩, hs2⟩ := hn
  intro h args i d hd hp hL
  obtain ⟨d', e, hd'⟩ := list_value hd
  cases e
  have hP := (hparse args i.lineno).run rfl hd'
  have htk : ∀ ns ex, op.parseKnown (some (i.lineno : Int)) args = .ok (ns, ex) → Takes op [c!"mntpoint"] (mountWords.map (wordOf d)) ns (noWords ex) :=
    fun ns ex hk => takes_mount (Sheet.check_wf hc) hmo hk (mount_word hmo ((hm args i.lineno).run rfl hd') hk)
  by_cases hf : (d.getD c!"format").truthy = true
  · refine list_normal (s := s.withPreexist) (((he args i.lineno).run rfl hd').parsed hf) hstr hs hc2 hn2 (fun k hk => (hT2 k hk).1) (fun k hk e => (hT2 k e).2 hk) (fun args' hF => hsim args args' ?_) hd
      (skip_ok hs2 d) htk hp (lossless_withPreexist hk hL)
    intro l l' ns ex h1
    obtain ⟨ns', h2, h3⟩ := hF l l' ns ex h1
    exact ⟨ns', h2, ⟨h3.1, h3.2.1, h3.2.2.mono (by simp)⟩, fun _ => h3.obj _ (by simp)⟩
  · refine list_normal hP hstr hs hc hn1 (fun k hk => (hT k hk).1) (fun k hk e => (hT k e).2.1 hk) (fun args' hF => hsim args args' ?_) hd
      (skip_ok hs1 d) htk hp hL
    intro l l' ns ex h1
    obtain ⟨ns', h2, h3⟩ := hF l l' ns ex h1
    refine ⟨ns', h2, h3, fun hf' => absurd ?_ hf⟩
    rw [Ns.getD, hP.known (fun e => (hT _ e).2.2 rfl) h1]
    exact hf'

/-! ## `network` with `--noipv4` -/

/-- The option for the boot protocol is only written if there is one. -/
def protoCheck (s : Sheet) (fixed : List Str) (op : OptParser) (o : Out) : Bool :=
  match outArgs o with
  | none => true
  | some l => l.all fun x => x.2.all fun a => match a with
    | .pos _ => true
    | .opt n _ => match op.lookup n with
      | none => true
      | some a => !s.skip.contains a.dest || fixed.contains a.dest || a.dest = c!"bootProto" && !x.1.admits c!"bootProto" (some (.str []))

theorem proto_ok {s : Sheet} (h : protoCheck s fixed op o = true) {d : Ns} (hd : d.get c!"bootProto" = some (.str [])) : SkipOk s fixed op o d := by
  intro l hl x hx hxe n v hv a ha hs hf l'
  exfalso
  unfold protoCheck at h
  rw [hl] at h
  have := List.all_eq_true.1 (List.all_eq_true.1 h x hx) _ hv
  simp only [ha, List.contains_eq_mem, hs, hf, decide_true, decide_false, Bool.not_true, Bool.false_or, Bool.and_eq_true, decide_eq_true_eq, Bool.not_eq_true'] at this
  rw [← hd, admits_of_eval hxe] at this
  cases this.2

/-- The sheet with the boot protocol read back. -/
def Sheet.withProto (s : Sheet) : Sheet :=
  { s with skip := s.skip.filter (· ≠ c!"bootProto"), full := c!"bootProto" :: s.full }

theorem lossless_withProto {s : Sheet} {base d : Ns} (hk : whenKept s.lossy c!"bootProto" = .tt) (h : s.Lossless need fixed base d) :
    s.withProto.Lossless need fixed base d := by
  refine ⟨h.1, h.2.1, h.2.2.1, fun k hm hs => ?_⟩
  by_cases e : k = c!"bootProto"
  · subst e
    right
    refine ⟨?_, .inl (by simp [Sheet.withProto])⟩
    change (whenKept s.lossy c!"bootProto").eval d = true
    rw [hk]; rfl
  · rcases h.2.2.2 k hm (fun hs' => hs (List.mem_filter.2 ⟨hs', by simpa using e⟩)) with h | ⟨h1, h2⟩
    · exact .inl h
    · exact .inr ⟨h1, h2.imp_left fun h => List.mem_cons_of_mem _ h⟩

open Cmd in
/-- `network` from Fedora 24 on. -/
theorem proto_normal (s : Sheet) (hparse : ∀ args n, M.Post n (parse args) (ParsedBy op dc.init T n args)) (hx : ∀ args n, M.Post n (parse args) (NoProto op dc.init n args))
    (hstr : ∀ d, dc.str d = o.render d) (hs : str = listStr ∨ ∃ hd, headingOk hd = true ∧ str = headedListStr hd)
    (hsim : ∀ args args' X, (∀ x ∈ X, x = c!"bootProto") → Follows op dc.init X noWords args args' → M.Sim (Alike (c!"lineno" :: X)) (parse args) (parse args'))
    (hT : ∀ k ∈ T, k ∈ s.skip ∧ k ∉ fixed) (hT2 : c!"lineno" ∈ s.withProto.skip ∧ c!"lineno" ∉ fixed)
    (hk : whenKept s.lossy c!"bootProto" = .tt) (hc : s.check op dc.init o = true) (hc2 : s.withProto.check op dc.init o = true)
    (hn : (normalCheck s need fixed [c!"bootProto"] [] op dc.init [] o && normalCheck s.withProto need fixed [] [] op dc.init [] o && optsOnly op &&
      protoCheck s fixed op o && skipCheck s.withProto fixed op o) = true) :
    (listCmd name prio cinit dc parse str).Normal s need fixed (setToObj op.defaults dc.init) := by
  simp only [Bool.and_eq_true] at hn
  obtain ⟨⟨⟨⟨hn1, hn2⟩, hmo⟩, hs1⟩, hs2⟩ := hn
  intro h args i d hd hp hL
  obtain ⟨d', e, hd'⟩ := list_value hd
  cases e
  have hP := (hparse args i.lineno).run rfl hd'
  obtain ⟨hv1, hv2⟩ := (hx args i.lineno).run rfl hd'
  by_cases hf : (d.getD c!"noipv4").truthy = true
  · have hb := hv1 hf
    obtain ⟨nm, hnm, args', hw, hk'⟩ := list_normal (Y := [c!"lineno", c!"bootProto"]) hP hstr hs hc hn1 (fun k hk => (hT k hk).1) (fun k hk e => (hT k e).2 hk)
      (fun args' hF => hsim args args' [c!"bootProto"] (by simp) hF) hd (proto_ok hs1 hb) (fun ns ex _ => takes_noWords (Sheet.check_wf hc) hmo ns ex) hp hL
    refine ⟨nm, hnm, args', hw, fun h' i' hcl => ?_⟩
    obtain ⟨d2, hd2, ha⟩ := hk' h' i' hcl
    refine ⟨d2, hd2, fun k hkl => ?_⟩
    obtain ⟨d3, e, hd3⟩ := list_value hd2
    cases e
    by_cases hkb : k = c!"bootProto"
    · subst hkb
      rw [hb, ((hx args' i'.lineno).run rfl hd3).1 (by rw [← ha.getD (by decide)]; exact hf)]
    · exact ha k (by simp_all)
  · exact list_normal (s := s.withProto) (P := []) (ps := []) (hv2 (by simpa using hf)) hstr hs hc2 hn2 (fun k hk => by simp only [List.mem_singleton] at hk; rw [hk]; exact hT2.1)
      (fun k hk e => by simp only [List.mem_singleton] at e; rw [e] at hk; exact hT2.2 hk) (fun args' hF => hsim args args' [] (by simp) hF) hd (skip_ok hs2 d)
      (fun ns ex _ => takes_noWords (Sheet.check_wf hc) hmo ns ex) hp (lossless_withProto hk hL)

end Ks
