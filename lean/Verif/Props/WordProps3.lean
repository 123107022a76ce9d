import Verif.Props.WordProps2
/-!
# C78: the time zone
-/
namespace Ks

open Cmd

/-! ## Specification -/

/-- The settings of `timezone`: the zone, whether the clock is in UTC, whether NTP is off, the servers. -/
structure ZoneIs (d : Ns) (w : Str) (u n : Bool) (ws : List Str) : Prop where
  zone : StrIs d c!"timezone" w
  utc : (d.getD c!"isUtc").truthy = u
  nontp : (d.getD c!"nontp").truthy = n
  servers : ListIs d c!"ntpservers" ws

theorem zone_self {j : Inst CState} {w : Str} {u n : Bool} {ws : List Str} (h : ZoneIs j.attrs.attrs w u n ws) : ZoneIs (selfOf j) w u n ws := by
  obtain ⟨h1, h2, h3, h4⟩ := h
  unfold StrIs at h1
  unfold ListIs at h4
  refine ⟨?_, ?_, ?_, ?_⟩
  · unfold StrIs; rwa [selfOf_getD (by decide)]
  · rwa [selfOf_getD (by decide)]
  · rwa [selfOf_getD (by decide)]
  · unfold ListIs; rwa [selfOf_getD (by decide)]

/-! ## The parsers -/

theorem zone_read {k : Info} {args : List Str} {ns : Ns} {w : Str} {h : Str → Option Bool} {i : Inst CState} (hk : k.op.parseKnown (some i.lineno) args = .ok (ns, []))
    (hg : ns.getD c!"timezone" = .list [w]) : ∃ j, FC3_Timezone.parse k args h i = (j, .ok ()) ∧ j.attrs.attrs = (setToObj ns i.attrs.attrs).set c!"timezone" (.str w) := by
  refine ⟨_, (M.step (M.parseKnown_ok hk)).trans ((M.step rfl).trans ((M.step (by simp only [hg]; rfl)).trans ((M.step (M.failIf_no rfl)).trans ((M.step (by simp only [hg]; rfl)).trans rfl)))), rfl⟩

theorem parseArgs_of_known {p : OptParser} {l : Option Int} {args : List Str} {ns : Ns} (h : p.parseKnown l args = .ok (ns, [])) : p.parseArgs l args = .ok ns := by
  unfold OptParser.parseArgs
  rw [h]
  rfl

theorem zone_read25 {k : Info} {args : List Str} {ns : Ns} {w : Str} {u n : Bool} {ws : List Str} {h : Str → Option Bool} {i : Inst CState} (hk : k.op.parseKnown (some i.lineno) args = .ok (ns, []))
    (ha : args ≠ []) (hx : n = false ∨ ws = [])
    (hg : ns.getD c!"timezone" = .list [w] ∧ ZoneIs ((setToObj ns i.attrs.attrs).set c!"timezone" (.str w)) w u n ws ∨ ns.getD c!"timezone" = .list [] ∧ ZoneIs (setToObj ns i.attrs.attrs) w u n ws) :
    ∃ j, F25_Timezone.parse k args h i = (j, .ok ()) ∧ ZoneIs j.attrs.attrs w u n ws := by
  have ha' : (!(!args.isEmpty)) = false := by
    cases args with
    | nil => exact absurd rfl ha
    | cons _ _ => rfl
  have ex : ∀ {j : Inst CState}, ZoneIs j.attrs.attrs w u n ws → (((selfOf j).getD c!"ntpservers").truthy && ((selfOf j).getD c!"nontp").truthy) = false := by
    intro j hj
    obtain ⟨-, -, h3, h4⟩ := zone_self hj
    rw [h3, h4.truthy]
    rcases hx with rfl | rfl
    · simp
    · simp
  rcases hg with ⟨hg, hz⟩ | ⟨hg, hz⟩
  · refine ⟨{ i with attrs := ⟨(setToObj ns i.attrs.attrs).set c!"timezone" (.str w), i.attrs.data, i.attrs.warned ++ (k.op.warnings (some i.lineno) args).map Warn.deprecation⟩ }, (M.step (M.parseArgs_ok (parseArgs_of_known hk))).trans ((M.step rfl).trans ((M.step (M.failIf_no ha')).trans ?_)), hz⟩
    simp only [hg, Val.len, List.length_singleton, decide_true, if_true]
    exact (M.step rfl).trans ((M.step rfl).trans ((M.step rfl).trans (M.failIf_no (ex hz))))
  · refine ⟨{ i with attrs := ⟨setToObj ns i.attrs.attrs, i.attrs.data, i.attrs.warned ++ (k.op.warnings (some i.lineno) args).map Warn.deprecation⟩ }, (M.step (M.parseArgs_ok (parseArgs_of_known hk))).trans ((M.step rfl).trans ((M.step (M.failIf_no ha')).trans ?_)), hz⟩
    simp only [hg, Val.len, List.length_nil]
    exact (M.step (M.failIf_no rfl)).trans ((M.step rfl).trans (M.failIf_no (ex hz)))

/-! ## The options -/

def zoneToks (utc : Str) (u n : Bool) (sv : Str) : List Tok :=
  (if u then [⟨utc, none⟩] else []) ++ (if n then [⟨c!"--nontp", none⟩] else []) ++ valTok c!"--ntpservers" sv

def zoneWords (utc w : Str) (u n : Bool) (ws : List Str) : List Str := (if w.isEmpty then [] else [w]) ++ (zoneToks utc u n (joinWith c!"," ws)).map Tok.text

theorem zone_ns18 {w : Str} (hw : startsWith w c!"-" = false) (l : Option Int) (u n : Bool) (sv : Str) : ∃ ns, F18_Timezone.op.parseKnown l (w :: (zoneToks c!"--isUtc" u n sv).map Tok.text) = .ok (ns, []) ∧
    ns.getD c!"timezone" = .list [w] ∧ (setToObj ns F18_Timezone.init).get c!"isUtc" = some (.bool u) ∧ (setToObj ns F18_Timezone.init).get c!"nontp" = some (.bool n) ∧
    (setToObj ns F18_Timezone.init).get c!"ntpservers" = some (.list (commaSplit sv)) := by
  have hok : ∀ t ∈ zoneToks c!"--isUtc" u n sv, TokOk F18_Timezone.op l t := by
    intro t ht
    simp only [zoneToks, valTok, List.mem_append] at ht
    rcases ht with (ht | ht) | ht <;> split at ht <;> first | (rw [List.mem_singleton] at ht; subst ht; first | exact ⟨_, _, rfl, rfl, rfl⟩ | exact ⟨_, _, rfl, .inl rfl, rfl⟩) | cases ht
  obtain ⟨ns, hk, hns⟩ := front_word (l := l) (p := F18_Timezone.op) (a := F18_Timezone.op.actions[0]) (by decide +kernel) hw (.inl rfl) hok
  refine ⟨ns, hk, by unfold Ns.getD; rw [show ns.get c!"timezone" = _ from hns.2.1]; rfl, ?_, ?_, ?_⟩
  · cases u <;> cases n <;> cases sv <;> exact (setTo_get (by simp) hns).2 _ (by decide) _ rfl (by simp)
  · cases u <;> cases n <;> cases sv <;> exact (setTo_get (by simp) hns).2 _ (by decide) _ rfl (by simp)
  · cases u <;> cases n <;> cases sv <;> first | exact (setTo_get (by simp) hns).2 _ (by decide) _ rfl (by simp) | exact (setTo_keep hns (by decide) rfl).trans rfl

theorem zone_ns25 {w : Str} (hw : startsWith w c!"-" = false) {utc : Str} (hu : utc = c!"--isUtc" ∨ utc = c!"--utc") (l : Option Int) (u n : Bool) (sv : Str) :
    ∃ ns, F25_Timezone.op.parseKnown l ((if w.isEmpty then [] else [w]) ++ (zoneToks utc u n sv).map Tok.text) = .ok (ns, []) ∧
    ns.getD c!"timezone" = .list (if w.isEmpty then [] else [w]) ∧ (setToObj ns F25_Timezone.init).get c!"isUtc" = some (.bool u) ∧ (setToObj ns F25_Timezone.init).get c!"nontp" = some (.bool n) ∧
    (setToObj ns F25_Timezone.init).get c!"ntpservers" = some (.list (commaSplit sv)) ∧ (setToObj ns F25_Timezone.init).get c!"timezone" = some (.list (if w.isEmpty then [] else [w])) := by
  have hok : ∀ t ∈ zoneToks utc u n sv, TokOk F25_Timezone.op l t := by
    intro t ht
    simp only [zoneToks, valTok, List.mem_append] at ht
    rcases hu with rfl | rfl <;> rcases ht with (ht | ht) | ht <;> split at ht <;>
      first | (rw [List.mem_singleton] at ht; subst ht; first | exact ⟨_, _, rfl, rfl, rfl⟩ | exact ⟨_, _, rfl, .inl rfl, rfl⟩) | cases ht
  have key : ∃ ns, F25_Timezone.op.parseKnown l ((if w.isEmpty then [] else [w]) ++ (zoneToks utc u n sv).map Tok.text) = .ok (ns, []) ∧
      WordNs F25_Timezone.op l F25_Timezone.op.actions[0] (.list (if w.isEmpty then [] else [w])) (zoneToks utc u n sv) ns := by
    cases w with
    | nil =>
      obtain ⟨ns, hk, hns⟩ := back_words (l := l) (p := F25_Timezone.op) (a := F25_Timezone.op.actions[0]) (by decide +kernel) (ws := []) (by simp) (v := .list []) rfl rfl hok
      exact ⟨ns, by simpa using hk, hns⟩
    | cons a t =>
      obtain ⟨ns, hk, hns⟩ := front_word (l := l) (p := F25_Timezone.op) (a := F25_Timezone.op.actions[0]) (by decide +kernel) hw (.inr rfl) hok
      exact ⟨ns, hk, hns⟩
  obtain ⟨ns, hk, hns⟩ := key
  refine ⟨ns, hk, by unfold Ns.getD; rw [show ns.get c!"timezone" = _ from hns.2.1]; rfl, ?_, ?_, ?_, (setTo_get (by simp) hns).1⟩
  · rcases hu with rfl | rfl <;> cases u <;> cases n <;> cases sv <;> exact (setTo_get (by simp) hns).2 _ (by decide) _ rfl (by simp)
  · rcases hu with rfl | rfl <;> cases u <;> cases n <;> cases sv <;> exact (setTo_get (by simp) hns).2 _ (by decide) _ rfl (by simp)
  · rcases hu with rfl | rfl <;> cases u <;> cases n <;> cases sv <;> first | exact (setTo_get (by simp) hns).2 _ (by decide) _ rfl (by simp) | exact (setTo_keep hns (by decide) rfl).trans rfl

/-! ## The texts -/

theorem zone_text18 {d : Ns} {w : Str} {u n : Bool} {ws : List Str} (h : ZoneIs d w u n ws) (hw : w ≠ []) (hs : ∀ x ∈ ws, PlainElem x) :
    (F18_Timezone.strOut F18_Timezone.args).render d = c!"# System timezone\n" ++ (c!"timezone" ++ wordsText ((zoneWords c!"--isUtc" w u n ws).map bareWord) ++ c!"\n") := by
  obtain ⟨h1, h2, h3, h4⟩ := h
  have t1 := h1.truthy
  have t4 := h4.truthy
  rw [wordsText_bare]
  rcases w with _ | ⟨a, w⟩
  · exact absurd rfl hw
  rcases ws with _ | ⟨b, ws⟩
  · cases u <;> cases n <;>
      simp [F18_Timezone.strOut, F18_Timezone.args, Out.guard, Out.render, pieceText, Cond.eval, Frag.render, t1, h2, h3, t4, zoneWords, zoneToks, valTok, Tok.text, valText, joinWith, h1.fmt]
  · have hj : (joinWith c!"," (b :: ws)).isEmpty = false := by
      have := (hs b (by simp)).1
      cases b with
      | nil => exact absurd rfl this
      | cons _ _ => cases ws <;> rfl
    cases u <;> cases n <;>
      simp [F18_Timezone.strOut, F18_Timezone.args, Out.guard, Out.render, pieceText, Cond.eval, Frag.render, t1, h2, h3, t4, zoneWords, zoneToks, valTok, Tok.text, valText, h1.fmt, h4.items, hj]

theorem zone_text25 {d : Ns} {w : Str} {u n : Bool} {ws : List Str} (h : ZoneIs d w u n ws) (hw : w ≠ [] ∨ u = true ∨ n = true ∨ ws ≠ []) (hs : ∀ x ∈ ws, PlainElem x) :
    (F25_Timezone.strOut F25_Timezone.args).render d = c!"# System timezone\n" ++ (c!"timezone" ++ wordsText ((zoneWords c!"--isUtc" w u n ws).map bareWord) ++ c!"\n") ∧
    (F25_Timezone.strOut F32_Timezone.args).render d = c!"# System timezone\n" ++ (c!"timezone" ++ wordsText ((zoneWords c!"--utc" w u n ws).map bareWord) ++ c!"\n") := by
  obtain ⟨h1, h2, h3, h4⟩ := h
  have t1 := h1.truthy
  have t4 := h4.truthy
  rw [wordsText_bare, wordsText_bare]
  have hj : (joinWith c!"," ws).isEmpty = ws.isEmpty := by
    rcases ws with _ | ⟨b, ws⟩
    · rfl
    · have := (hs b (by simp)).1
      cases b with
      | nil => exact absurd rfl this
      | cons _ _ => cases ws <;> rfl
  rcases w with _ | ⟨a, w⟩ <;> rcases ws with _ | ⟨b, ws⟩ <;> cases u <;> cases n <;>
      simp [F25_Timezone.strOut, F25_Timezone.args, F32_Timezone.args, Out.guard, Out.anyCond, Out.render, pieceText, Cond.eval, Frag.render, t1, h2, h3, t4, zoneWords, zoneToks, valTok, Tok.text, valText, hj] at hw ⊢ <;>
      simp [h1.fmt, h4.items]

theorem zone_text3 {d : Ns} {w : Str} (hw : w ≠ []) (h : d.getD c!"timezone" = .str w) :
    FC3_Timezone.strOut.render d = c!"# System timezone\n" ++ (c!"timezone" ++ wordsText (if (d.getD c!"isUtc").truthy then [c!"--utc", w].map bareWord else [(c!"  ", w.map Seg.bare)]) ++ c!"\n") ∧
    FC6_Timezone.strOut.render d = c!"# System timezone\n" ++ (c!"timezone" ++ wordsText (if (d.getD c!"isUtc").truthy then [c!"--isUtc", w].map bareWord else [(c!"  ", w.map Seg.bare)]) ++ c!"\n") := by
  have e : wordsText [(c!"  ", w.map Seg.bare)] = c!"  " ++ w := by simp only [wordsText, List.map_cons, List.map_nil, List.flatten_cons, List.flatten_nil, List.append_nil, word_bare_render]
  cases w with
  | nil => exact absurd rfl hw
  | cons a t =>
    cases hc : (d.getD c!"isUtc").truthy
    · simp only [Bool.false_eq_true, if_false, e]
      simp [FC3_Timezone.strOut, FC6_Timezone.strOut, Out.render, pieceText, Cond.eval, Frag.render, h, hc, truthy_cons, Val.fmt]
    · simp only [if_true, wordsText_bare]
      simp [FC3_Timezone.strOut, FC6_Timezone.strOut, Out.render, pieceText, Cond.eval, Frag.render, h, hc, truthy_cons, Val.fmt]

/-! ## Stability -/

theorem zone_words_ok {utc w : Str} (hu : utc = c!"--isUtc" ∨ utc = c!"--utc") {u n : Bool} {ws : List Str} (hw : w = [] ∨ PlainWord w) (hs : ∀ x ∈ ws, PlainElem x) :
    ∀ x ∈ (zoneWords utc w u n ws).map bareWord, x.1 ≠ [] ∧ (∀ c ∈ x.1, c = ' ') ∧ x.2.Ok true ∧ NoBreak x.2.render := by
  intro x hx
  obtain ⟨y, hy, rfl⟩ := List.mem_map.1 hx
  simp only [zoneWords, zoneToks, valTok, List.map_append, List.mem_append] at hy
  have hu' : utc ≠ [] ∧ ∀ c ∈ utc, PlainChar c := by rcases hu with rfl | rfl <;> decide
  rcases hy with hy | (hy | hy) | hy <;> split at hy
  · cases hy
  · rw [List.mem_singleton] at hy
    subst hy
    rcases hw with rfl | hw
    · contradiction
    · exact bareWord_ok hw.1 hw.2.2
  · simp only [List.map_cons, List.map_nil, List.mem_singleton, Tok.text, valText, List.append_nil] at hy
    subst hy
    exact bareWord_ok hu'.1 hu'.2
  · cases hy
  · simp only [List.map_cons, List.map_nil, List.mem_singleton, Tok.text, valText, List.append_nil] at hy
    subst hy
    exact bareWord_ok (by decide) (by decide)
  · cases hy
  · cases hy
  · simp only [List.map_cons, List.map_nil, List.mem_singleton, Tok.text, valText] at hy
    subst hy
    refine bareWord_ok (by simp) fun c hc => ?_
    rcases List.mem_append.1 hc with hc | hc
    · clear * - hc
      revert c
      decide
    · rcases List.mem_cons.1 hc with rfl | hc
      · decide
      · exact join_plain hs c hc

theorem zone_fc3 {v : Nat} (hv : Supported v) (hc : (commandMap v).lookup c!"timezone" = some FC3_Timezone.cls) {d : Ns} {w : Str} (hw : PlainWord w) {u : Bool} (hd0 : d.getD c!"timezone" = .str w ∧ (d.getD c!"isUtc").truthy = u) :
    ReadBack v c!"timezone" (FC3_Timezone.strOut.render d) fun d => d.getD c!"timezone" = .str w ∧ (d.getD c!"isUtc").truthy = u := by
  refine plain_stable hv hc (by decide) (hd := c!"# System timezone\n") (by decide) (by decide) (by decide) ?_ hd0 (fun d hd => by rw [(zone_text3 hw.1 hd.1).1, hd.2]) fun i hi => ?_
  · cases u
    · simp only [Bool.false_eq_true, if_false, List.mem_singleton, forall_eq]
      exact ⟨by decide, by decide, (bareWord_ok hw.1 hw.2.2).2.2⟩
    · simp only [if_true, List.map_cons, List.map_nil, List.mem_cons, List.not_mem_nil, or_false, forall_eq_or_imp, forall_eq]
      exact ⟨bareWord_ok (by decide) (by decide), bareWord_ok hw.1 hw.2.2⟩
  · have e : (if u then [c!"--utc", w].map bareWord else [(c!"  ", w.map Seg.bare)]).map (fun x => x.2.text) = (if u then [⟨c!"--utc", none⟩] else [] : List Tok).map Tok.text ++ [w] := by
      cases u
      · simp [word_bare_text w]
      · simp only [if_true, texts_bare]
        rfl
    rw [e]
    obtain ⟨ns, hk, hns⟩ := back_words (l := some (i.lineno : Int)) (p := FC3_Timezone.op) (a := FC3_Timezone.op.actions[1]) (by decide +kernel) (ws := [w]) (by simpa using hw.2.1)
      (getValues_words hw.2.1 rfl rfl (.inl rfl)) rfl (ts := if u then [⟨c!"--utc", none⟩] else []) (by
        cases u
        · intro t ht; cases ht
        · simp only [if_true, List.mem_singleton, forall_eq]; exact ⟨_, _, rfl, rfl, rfl⟩)
    obtain ⟨j, h1, h2⟩ := zone_read (k := FC3_Timezone.info) (h := fun _ => none) hk (by unfold Ns.getD; rw [show ns.get c!"timezone" = _ from hns.2.1]; rfl)
    refine read_done (Q := fun d => d.getD c!"timezone" = .str w ∧ (d.getD c!"isUtc").truthy = u) h1 h2 fun j hj => ?_
    have e1 : (selfOf j).getD c!"timezone" = .str w := by
      rw [selfOf_getD (by decide), hj]
      simp [Ns.getD, Ns.get_set_self]
    have e2 : (selfOf j).getD c!"isUtc" = .bool u := by
      rw [selfOf_getD (by decide), hj, hi]
      simp only [Ns.getD, Ns.get_set]
      rw [show (setToObj ns FC3_Timezone.init).get c!"isUtc" = some (.bool u) by cases u <;> exact (setTo_get (by simp) hns).2 _ (by decide) _ rfl (by simp)]
      rfl
    exact ⟨e1, by rw [e2]; rfl⟩

theorem zone_fc6 {v : Nat} (hv : Supported v) (hc : (commandMap v).lookup c!"timezone" = some FC6_Timezone.cls) {d : Ns} {w : Str} (hw : PlainWord w) {u : Bool} (hd0 : d.getD c!"timezone" = .str w ∧ (d.getD c!"isUtc").truthy = u) :
    ReadBack v c!"timezone" (FC6_Timezone.strOut.render d) fun d => d.getD c!"timezone" = .str w ∧ (d.getD c!"isUtc").truthy = u := by
  refine plain_stable hv hc (by decide) (hd := c!"# System timezone\n") (by decide) (by decide) (by decide) ?_ hd0 (fun d hd => by rw [(zone_text3 hw.1 hd.1).2, hd.2]) fun i hi => ?_
  · cases u
    · simp only [Bool.false_eq_true, if_false, List.mem_singleton, forall_eq]
      exact ⟨by decide, by decide, (bareWord_ok hw.1 hw.2.2).2.2⟩
    · simp only [if_true, List.map_cons, List.map_nil, List.mem_cons, List.not_mem_nil, or_false, forall_eq_or_imp, forall_eq]
      exact ⟨bareWord_ok (by decide) (by decide), bareWord_ok hw.1 hw.2.2⟩
  · have e : (if u then [c!"--isUtc", w].map bareWord else [(c!"  ", w.map Seg.bare)]).map (fun x => x.2.text) = (if u then [⟨c!"--isUtc", none⟩] else [] : List Tok).map Tok.text ++ [w] := by
      cases u
      · simp [word_bare_text w]
      · simp only [if_true, texts_bare]
        rfl
    rw [e]
    obtain ⟨ns, hk, hns⟩ := back_words (l := some (i.lineno : Int)) (p := FC6_Timezone.op) (a := FC6_Timezone.op.actions[0]) (by decide +kernel) (ws := [w]) (by simpa using hw.2.1)
      (getValues_words hw.2.1 rfl rfl (.inl rfl)) rfl (ts := if u then [⟨c!"--isUtc", none⟩] else []) (by
        cases u
        · intro t ht; cases ht
        · simp only [if_true, List.mem_singleton, forall_eq]; exact ⟨_, _, rfl, rfl, rfl⟩)
    obtain ⟨j, h1, h2⟩ := zone_read (k := FC6_Timezone.info) (h := fun _ => none) hk (by unfold Ns.getD; rw [show ns.get c!"timezone" = _ from hns.2.1]; rfl)
    refine read_done (Q := fun d => d.getD c!"timezone" = .str w ∧ (d.getD c!"isUtc").truthy = u) h1 h2 fun j hj => ?_
    have e1 : (selfOf j).getD c!"timezone" = .str w := by
      rw [selfOf_getD (by decide), hj]
      simp [Ns.getD, Ns.get_set_self]
    have e2 : (selfOf j).getD c!"isUtc" = .bool u := by
      rw [selfOf_getD (by decide), hj, hi]
      simp only [Ns.getD, Ns.get_set]
      rw [show (setToObj ns FC6_Timezone.init).get c!"isUtc" = some (.bool u) by cases u <;> exact (setTo_get (by simp) hns).2 _ (by decide) _ rfl (by simp)]
      rfl
    exact ⟨e1, by rw [e2]; rfl⟩

/-- Values of the attributes after the line. -/
theorem zone_set {ns init : Ns} {w : Str} {u n : Bool} {ws : List Str} (h2 : (setToObj ns init).get c!"isUtc" = some (.bool u)) (h3 : (setToObj ns init).get c!"nontp" = some (.bool n))
    (h4 : (setToObj ns init).get c!"ntpservers" = some (.list ws)) : ZoneIs ((setToObj ns init).set c!"timezone" (.str w)) w u n ws := by
  refine ⟨.inl ?_, ?_, ?_, .inl ?_⟩
  · simp [Ns.getD, Ns.get_set_self]
  · simp only [Ns.getD, Ns.get_set, h2]; rfl
  · simp only [Ns.getD, Ns.get_set, h3]; rfl
  · simp only [Ns.getD, Ns.get_set, h4]; rfl

theorem zone_f18 {v : Nat} (hv : Supported v) (hc : (commandMap v).lookup c!"timezone" = some F18_Timezone.cls) {d : Ns} {w : Str} {u n : Bool} {ws : List Str} (hd : ZoneIs d w u n ws)
    (hw : PlainWord w) (hs : ∀ x ∈ ws, PlainElem x) (hx : n = false ∨ ws = []) (hlen : ws.length ≤ 1) : ReadBack v c!"timezone" ((F18_Timezone.strOut F18_Timezone.args).render d) fun d => ZoneIs d w u n ws := by
  refine plain_stable hv hc (by decide) (hd := c!"# System timezone\n") (by decide) (by decide) (by decide) (zone_words_ok (.inl rfl) (.inr hw) hs) hd (fun d hd => zone_text18 hd hw.1 hs) fun i hi => ?_
  rw [texts_bare]
  have e : zoneWords c!"--isUtc" w u n ws = w :: (zoneToks c!"--isUtc" u n (joinWith c!"," ws)).map Tok.text := by
    unfold zoneWords
    cases w with
    | nil => exact absurd rfl hw.1
    | cons _ _ => rfl
  rw [e]
  obtain ⟨ns, hk, hg, g2, g3, g4⟩ := zone_ns18 hw.2.1 (some (i.lineno : Int)) u n (joinWith c!"," ws)
  rw [comma_plain hs] at g4
  obtain ⟨j, h1, h2⟩ := zone_read (k := F18_Timezone.info) (h := fun _ => none) hk hg
  have hz := zone_set (w := w) g2 g3 g4
  rw [← hi, ← h2] at hz
  have hits : ((selfOf j).getD c!"ntpservers").items = ws := by
    rcases (zone_self hz).servers with h | h
    · rw [h]; rfl
    · have h5 : ((setToObj ns F18_Timezone.init).set c!"timezone" (.str w)).getD c!"ntpservers" = .list ws := by simp only [Ns.getD, Ns.get_set, g4]; rfl
      rw [selfOf_getD (by decide), h2, hi, h5]
      rfl
  have hdd : dedup ws = ws := by
    rcases ws with _ | ⟨a, _ | ⟨b, t⟩⟩
    · rfl
    · rfl
    · simp at hlen
  have hz' : ∀ {b : List Ns} {c : List Warn} {i : Inst CState}, ZoneIs ({ i with attrs := ⟨j.attrs.attrs.set c!"ntpservers" (.list ws), b, c⟩ } : Inst CState).attrs.attrs w u n ws := by
    intro b c i
    obtain ⟨z1, z2, z3, -⟩ := hz
    refine ⟨?_, ?_, ?_, .inl ?_⟩
    · unfold StrIs Ns.getD at z1 ⊢; rw [Ns.get_set, if_neg (by decide)]; exact z1
    · unfold Ns.getD at z2 ⊢; rw [Ns.get_set, if_neg (by decide)]; exact z2
    · unfold Ns.getD at z3 ⊢; rw [Ns.get_set, if_neg (by decide)]; exact z3
    · simp [Ns.getD, Ns.get_set_self]
  refine ⟨{ j with attrs := ⟨j.attrs.attrs.set c!"ntpservers" (.list ws), j.attrs.data, j.attrs.warned⟩ }, ?_, ?_⟩
  · refine (M.step h1).trans ((M.step rfl).trans ((M.step (by rw [hits, hdd]; rfl)).trans ((M.step rfl).trans (M.failIf_no ?_))))
    obtain ⟨-, -, z3, z4⟩ := zone_self (hz' (b := j.attrs.data) (c := j.attrs.warned) (i := j))
    refine (congrArg₂ (· && ·) z4.truthy z3).trans ?_
    rcases hx with rfl | rfl <;> simp
  · exact zone_self hz'

theorem zone_f23 {v : Nat} (hv : Supported v) (hc : (commandMap v).lookup c!"timezone" = some F23_Timezone.cls) {d : Ns} {w : Str} {u n : Bool} {ws : List Str} (hd : ZoneIs d w u n ws)
    (hw : PlainWord w) (hs : ∀ x ∈ ws, PlainElem x) (hx : n = false ∨ ws = []) : ReadBack v c!"timezone" ((F18_Timezone.strOut F18_Timezone.args).render d) fun d => ZoneIs d w u n ws := by
  refine plain_stable hv hc (by decide) (hd := c!"# System timezone\n") (by decide) (by decide) (by decide) (zone_words_ok (.inl rfl) (.inr hw) hs) hd (fun d hd => zone_text18 hd hw.1 hs) fun i hi => ?_
  rw [texts_bare]
  have e : zoneWords c!"--isUtc" w u n ws = w :: (zoneToks c!"--isUtc" u n (joinWith c!"," ws)).map Tok.text := by
    unfold zoneWords
    cases w with
    | nil => exact absurd rfl hw.1
    | cons _ _ => rfl
  rw [e]
  obtain ⟨ns, hk, hg, g2, g3, g4⟩ := zone_ns18 hw.2.1 (some (i.lineno : Int)) u n (joinWith c!"," ws)
  rw [comma_plain hs] at g4
  obtain ⟨j, h1, h2⟩ := zone_read (k := F23_Timezone.info) (h := fun _ => none) hk hg
  have hz := zone_set (w := w) g2 g3 g4
  rw [show F18_Timezone.init = F23_Timezone.init from rfl, ← hi, ← h2] at hz
  refine ⟨j, ?_, zone_self hz⟩
  refine (M.step h1).trans ((M.step rfl).trans (M.failIf_no ?_))
  obtain ⟨-, -, z3, z4⟩ := zone_self hz
  refine (congrArg₂ (· && ·) z4.truthy z3).trans ?_
  rcases hx with rfl | rfl <;> simp

/-- What F25 and later read. -/
theorem zone_line25 {utc : Str} (hu : utc = c!"--isUtc" ∨ utc = c!"--utc") {w : Str} {u n : Bool} {ws : List Str} (hw : w = [] ∨ PlainWord w) (hne : w ≠ [] ∨ u = true ∨ n = true ∨ ws ≠ [])
    (hs : ∀ x ∈ ws, PlainElem x) (hx : n = false ∨ ws = []) {i : Inst CState} (hi : i.attrs.attrs = F25_Timezone.init) {h : Str → Option Bool} :
    ∃ j, F25_Timezone.parse F25_Timezone.info (zoneWords utc w u n ws) h i = (j, .ok ()) ∧ ZoneIs j.attrs.attrs w u n ws := by
  have hst : startsWith w c!"-" = false := by
    rcases hw with rfl | hw
    · rfl
    · exact hw.2.1
  obtain ⟨ns, hk, hg, g2, g3, g4, g5⟩ := zone_ns25 hst hu (some (i.lineno : Int)) u n (joinWith c!"," ws)
  rw [comma_plain hs] at g4
  refine zone_read25 hk ?_ hx ?_
  · unfold zoneWords zoneToks valTok
    rcases hne with h | rfl | rfl | h
    · cases w with
      | nil => exact absurd rfl h
      | cons _ _ => simp
    · simp
    · simp
    · have : (joinWith c!"," ws).isEmpty = false := by
        rcases ws with _ | ⟨b, ws⟩
        · exact absurd rfl h
        · have := (hs b (by simp)).1
          cases b with
          | nil => exact absurd rfl this
          | cons _ _ => cases ws <;> rfl
      simp [this]
  · cases w with
    | nil =>
      refine .inr ⟨hg, .inr ⟨?_, rfl⟩, ?_, ?_, .inl ?_⟩ <;> rw [hi]
      · simp only [Ns.getD, g5]; rfl
      · simp only [Ns.getD, g2]; rfl
      · simp only [Ns.getD, g3]; rfl
      · simp only [Ns.getD, g4]; rfl
    | cons a t => exact .inl ⟨hg, by rw [hi]; exact zone_set g2 g3 g4⟩

theorem zone_rhel7 {v : Nat} (hv : Supported v) (hc : (commandMap v).lookup c!"timezone" = some RHEL7_Timezone.cls) {d : Ns} {w : Str} {u n : Bool} {ws : List Str} (hd : ZoneIs d w u n ws)
    (hw : PlainWord w) (hs : ∀ x ∈ ws, PlainElem x) (hx : n = false ∨ ws = []) : ReadBack v c!"timezone" ((F18_Timezone.strOut F18_Timezone.args).render d) fun d => ZoneIs d w u n ws := by
  refine plain_stable hv hc (by decide) (hd := c!"# System timezone\n") (by decide) (by decide) (by decide) (zone_words_ok (.inl rfl) (.inr hw) hs) hd (fun d hd => zone_text18 hd hw.1 hs) fun i hi => ?_
  rw [texts_bare]
  obtain ⟨j, h1, h2⟩ := zone_line25 (h := fun _ => none) (.inl rfl) (.inr hw) (u := u) (.inl hw.1) hs hx (i := i) hi
  exact ⟨j, h1, zone_self h2⟩

theorem zone_f25 {v : Nat} (hv : Supported v) (hc : (commandMap v).lookup c!"timezone" = some F25_Timezone.cls) {d : Ns} {w : Str} {u n : Bool} {ws : List Str} (hd : ZoneIs d w u n ws)
    (hw : w = [] ∨ PlainWord w) (hne : w ≠ [] ∨ u = true ∨ n = true ∨ ws ≠ []) (hs : ∀ x ∈ ws, PlainElem x) (hx : n = false ∨ ws = []) :
    ReadBack v c!"timezone" ((F25_Timezone.strOut F25_Timezone.args).render d) fun d => ZoneIs d w u n ws := by
  refine plain_stable hv hc (by decide) (hd := c!"# System timezone\n") (by decide) (by decide) (by decide) (zone_words_ok (.inl rfl) hw hs) hd (fun d hd => (zone_text25 hd hne hs).1) fun i hi => ?_
  rw [texts_bare]
  obtain ⟨j, h1, h2⟩ := zone_line25 (h := fun _ => none) (.inl rfl) hw hne hs hx (i := i) hi
  exact ⟨j, h1, zone_self h2⟩

theorem when_warn {c : Bool} {w : Warn} {h : Str → Option Bool} {i : Inst CState} : ∃ j, M.when c (M.warn w) h i = (j, .ok ()) ∧ j.attrs.attrs = i.attrs.attrs := by
  cases c
  · exact ⟨i, rfl, rfl⟩
  · exact ⟨_, rfl, rfl⟩

theorem zone_read32 {args : List Str} {h : Str → Option Bool} {i j : Inst CState} (h1 : F25_Timezone.parse F25_Timezone.info args h i = (j, .ok ())) :
    ∃ j', F32_Timezone.parse F32_Timezone.info args h i = (j', .ok ()) ∧ j'.attrs.attrs = j.attrs.attrs := by
  obtain ⟨j', h2, h3⟩ := when_warn (c := args.contains c!"--isUtc") (w := .deprecation c!"The option --isUtc will be deprecated in future releases. Please modify your kickstart file to replace this option with its preferred alias --utc.") (h := h) (i := j)
  exact ⟨j', (M.step h1).trans ((M.step h2).trans rfl), h3⟩

theorem zone_read33 {args : List Str} {h : Str → Option Bool} {i j : Inst CState} (h1 : F32_Timezone.parse F32_Timezone.info args h i = (j, .ok ())) :
    ∃ j', F33_Timezone.parse F33_Timezone.info args h i = (j', .ok ()) ∧ j'.attrs.attrs = j.attrs.attrs := by
  obtain ⟨j1, h2, h3⟩ := when_warn (c := ((selfOf j).getD c!"ntpservers").truthy)
    (w := .deprecation c!"The option --ntpservers will be deprecated in future releases. Please modify your kickstart file to replace this option with timesource --ntp-server <server hostname> command invocation, one per NTP server.") (h := h) (i := j)
  obtain ⟨j2, h4, h5⟩ := when_warn (c := ((selfOf j).getD c!"nontp").truthy)
    (w := .deprecation c!"The option --nontp will be deprecated in future releases. Please modify your kickstart file to replace this option with timesource --ntp-disable command invocation.") (h := h) (i := j1)
  exact ⟨j2, (M.step h1).trans ((M.step rfl).trans ((M.step h2).trans ((M.step h4).trans rfl))), h5.trans h3⟩

theorem zone_f32 {v : Nat} (hv : Supported v) (hc : (commandMap v).lookup c!"timezone" = some F32_Timezone.cls ∨ (commandMap v).lookup c!"timezone" = some F33_Timezone.cls) {d : Ns} {w : Str} {u n : Bool}
    {ws : List Str} (hd : ZoneIs d w u n ws) (hw : w = [] ∨ PlainWord w) (hne : w ≠ [] ∨ u = true ∨ n = true ∨ ws ≠ []) (hs : ∀ x ∈ ws, PlainElem x) (hx : n = false ∨ ws = []) :
    ReadBack v c!"timezone" ((F25_Timezone.strOut F32_Timezone.args).render d) fun d => ZoneIs d w u n ws := by
  rcases hc with hc | hc
  · refine plain_stable hv hc (by decide) (hd := c!"# System timezone\n") (by decide) (by decide) (by decide) (zone_words_ok (.inr rfl) hw hs) hd (fun d hd => (zone_text25 hd hne hs).2) fun i hi => ?_
    rw [texts_bare]
    obtain ⟨j, h1, h2⟩ := zone_line25 (h := fun _ => none) (.inr rfl) hw hne hs hx (i := i) hi
    obtain ⟨j', h3, h4⟩ := zone_read32 h1
    exact ⟨j', h3, zone_self (by rw [h4]; exact h2)⟩
  · refine plain_stable hv hc (by decide) (hd := c!"# System timezone\n") (by decide) (by decide) (by decide) (zone_words_ok (.inr rfl) hw hs) hd (fun d hd => (zone_text25 hd hne hs).2) fun i hi => ?_
    rw [texts_bare]
    obtain ⟨j, h1, h2⟩ := zone_line25 (h := fun _ => none) (.inr rfl) hw hne hs hx (i := i) hi
    obtain ⟨j', h3, h4⟩ := zone_read32 h1
    obtain ⟨j2, h5, h6⟩ := zone_read33 h3
    exact ⟨j2, h5, zone_self (by rw [h6, h4]; exact h2)⟩

end Ks
