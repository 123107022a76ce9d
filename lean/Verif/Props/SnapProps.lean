import Verif.Props.SshProps
import Verif.Props.RuleProps
/-!
# C84: the snapshots are read again as they are written
-/
namespace Ks

open Cmd

/-! ## A list of lines that look at the objects before -/

/-- `ReadAlike` when the objects `e` that the list already holds satisfy `S e d`. -/
def ReadFresh (n : Str) (str : Ns → Str) (parse : List Str → M Ns) (R S : Ns → Ns → Prop) (d : Ns) : Prop :=
  ∃ g, WordsOk g ∧ str d = n ++ wordsText g ++ c!"\n" ∧
    ∀ i : Inst CState, (∀ e ∈ i.attrs.data, S e d) →
      ∃ j d', parse (g.map fun x => x.2.text) (fun _ => none) i = (j, .ok d') ∧ j.attrs.data = i.attrs.data ∧ str d' = str d ∧ R d d'

theorem lines_fresh {n : Str} (hn : PlainWord n) (hp : n.head? ≠ some '%') {name : Str} {prio : Option Int} {init : Ns} {dc : DataCls} {parse : List Str → M Ns} {R S : Ns → Ns → Prop}
    (hRS : ∀ d d' e, R d d' → S d e → S d' e) {ds : List Ns} (h : ∀ d ∈ ds, ReadFresh n dc.str parse R S d) (hS : ds.Pairwise S) (k : Nat) (i : Inst CState) (hi : ∀ e ∈ i.attrs.data, ∀ d ∈ ds, S e d) :
    ((ds.map dc.str).flatten = [] ∨ (ds.map dc.str).flatten.getLast? = some '\n') ∧ (∀ it ∈ lineItems (ds.map dc.str).flatten, ∃ l ws, it = .cmd l (n :: ws) ∧ CmdLine l (n :: ws)) ∧
    ∃ j ds', runClass (listCmd name prio init dc parse listStr) (fun _ => none) k (lineItems (ds.map dc.str).flatten) i = some j ∧ j.attrs.data = i.attrs.data ++ ds' ∧
      List.Forall₂ (fun d d' => dc.str d' = dc.str d ∧ R d d') ds ds' := by
  induction ds generalizing k i with
  | nil => exact ⟨.inl rfl, by simp [lineItems, splitLines], i, [], rfl, by simp, .nil⟩
  | cons d ds ih =>
    obtain ⟨g, hg, ht, hr⟩ := h d (by simp)
    obtain ⟨w1, w2⟩ := words_item hn hp hg
    have hlast : (dc.str d).getLast? = some '\n' := by rw [ht]; simp
    have hit : lineItems ((d :: ds).map dc.str).flatten = .cmd (dc.str d) (n :: g.map fun x => x.2.text) :: lineItems (ds.map dc.str).flatten := by
      rw [List.map_cons, List.flatten_cons, lineItems_append (.inr hlast), ht, w2]; rfl
    obtain ⟨j, d', p1, p2, p3, p4⟩ := hr (i.noted n (dc.str d) (k + 1)) fun e he => hi e he d (by simp)
    obtain ⟨hS1, hS2⟩ := List.pairwise_cons.1 hS
    obtain ⟨e1, e2, j', ds', e3, e4, e5⟩ := ih (fun d hd => h d (by simp [hd])) hS2 (k + 1) { j with attrs := { j.attrs with data := j.attrs.data ++ [d'] } } (by
      intro e he x hx
      rcases List.mem_append.1 he with he | he
      · rw [p2] at he
        exact hi e he x (by simp [hx])
      · rw [List.mem_singleton] at he
        subst he
        exact hRS _ _ _ p4 (hS1 x hx))
    refine ⟨.inr ?_, ?_, j', d' :: ds', ?_, ?_, .cons ⟨p3, p4⟩ e5⟩
    · rw [List.map_cons, List.flatten_cons, List.getLast?_append]
      rcases e1 with e1 | e1 <;> rw [e1]
      · exact hlast
      · rfl
    · rw [hit]
      intro it hm
      rcases List.mem_cons.1 hm with rfl | hm
      · exact ⟨_, _, rfl, by rw [ht]; exact w1⟩
      · exact e2 it hm
    · rw [hit, runClass]
      have hpar : (listCmd name prio init dc parse listStr).parse (fun _ => none) (g.map fun x => x.2.text) (i.noted n (dc.str d) (k + 1)) = (j, .ok (some d')) := by
        simp only [listCmd, p1]
      rw [hpar]
      exact e3
    · rw [e4]
      show j.attrs.data ++ [d'] ++ ds' = _
      rw [p2, List.append_assoc]
      rfl

/-- `list_back` for a `parse` that looks at the list. -/
theorem list_fresh {v : Nat} (hv : Supported v) {n : Str} (hn : PlainWord n) (hp : n.head? ≠ some '%') {name : Str} {prio : Option Int} {init : Ns} {dc : DataCls} {parse : List Str → M Ns}
    (hc : (commandMap v).lookup n = some (listCmd name prio init dc parse listStr)) (hla : looksAt (attrName name) = []) {R S : Ns → Ns → Prop} (hRS : ∀ d d' e, R d d' → S d e → S d' e) {ds : List Ns}
    (h : ∀ d ∈ ds, ReadFresh n dc.str parse R S d) (hS : ds.Pairwise S) :
    StableText v n (ds.map dc.str).flatten ∧ List.Forall₂ R ds (dataOf (runCommands Handler.dispatch 0 (lineItems (ds.map dc.str).flatten) (newHandler v)).1 n) := by
  obtain ⟨h1, h2, j, ds', h3, h4, h5⟩ := lines_fresh (name := name) (prio := prio) (init := init) hn hp hRS h hS 0 (listCmd name prio init dc parse listStr).new.inst (fun e he => nomatch he)
  have h4' : j.attrs.data = ds' := h4
  have ht : ∀ a ∈ looksAt (attrName (listCmd name prio init dc parse listStr).name), (fun _ => none : Str → Option Bool) a = (newHandler v).seenAttr a := by
    intro a ha
    rw [show (listCmd name prio init dc parse listStr).name = name from rfl, hla] at ha
    cases ha
  have hown : ∀ it ∈ lineItems (ds.map dc.str).flatten, PlainOwn v n it := by
    intro it hit
    obtain ⟨l, ws, rfl, hcl⟩ := h2 it hit
    exact ⟨hcl, rfl⟩
  have htx : (listCmd name prio init dc parse listStr).str j = (ds.map dc.str).flatten := by
    show (j.attrs.data.map dc.str).flatten = _
    rw [h4']
    congr 1
    clear h3 h4 h4' hown h2 h1 h hS
    induction h5 with
    | nil => rfl
    | cons a _ ih => rw [List.map_cons, List.map_cons, a.1, ih]
  refine ⟨stable_of_class hv hc ht h1 hown h3 htx, ?_⟩
  obtain ⟨r, g1, g2⟩ := new_object hv hc
  obtain ⟨-, e2⟩ := run_class hv (fun it hit => plainOwn_own hv hc (hown it hit)) g1 .new (.refl _) g2 ht h3
  have hsh := (runH_session (v := v) .new (lineItems (ds.map dc.str).flatten) 0).2
  have e : (runH 0 (lineItems (ds.map dc.str).flatten) (newHandler v)).1.Serves n r := by unfold Handler.Serves; rw [hsh.commands]; exact g1
  show List.Forall₂ R ds (dataOf (runH 0 (lineItems (ds.map dc.str).flatten) (newHandler v)).1 n)
  rw [data_serves e e2]
  show List.Forall₂ R ds j.attrs.data
  rw [h4']
  exact h5.imp fun _ _ a => a.2

/-! ## `snapshot` -/

/-- The origin, the name and the time of a snapshot (0 is after the installation, 1 before). -/
def SnapIs (d : Ns) (o w : Str) (b : Bool) : Prop :=
  d.getD c!"origin" = .str o ∧ d.getD c!"name" = .str w ∧ d.getD c!"when" = .int (if b then 1 else 0)

def whenWord (b : Bool) : Str := if b then c!"pre-install" else c!"post-install"

def snapToks (w : Str) (b : Bool) : List Tok := [⟨c!"--name", some w⟩, ⟨c!"--when", some (whenWord b)⟩]

def snapWords (o w : Str) (b : Bool) : List (Str × Word) := (o :: (snapToks w b).map Tok.text).map bareWord

theorem snap_text {d : Ns} {o w : Str} {b : Bool} (h : SnapIs d o w b) : F26_SnapshotData.cls.str d = c!"snapshot" ++ wordsText (snapWords o w b) ++ c!"\n" := by
  obtain ⟨h1, h2, h3⟩ := h
  have ht : ∀ s : Str, Trimmed (c!"snapshot" ++ s ++ c!"l") := fun s => by
    constructor
    · intro c hc; cases hc; rfl
    · intro c hc
      rw [List.getLast?_append] at hc
      cases hc; rfl
  unfold snapWords
  rw [wordsText_bare]
  cases b
  · have e := strip_eq_self (ht (c!" " ++ o ++ c!" --name=" ++ w ++ c!" --when=post-instal"))
    simp [F26_SnapshotData.cls, F26_SnapshotData.strText, F26_SnapshotData.args, Out.render, pieceText, Cond.eval, Frag.render, h1, h2, h3, Val.fmt, snapToks, whenWord, Tok.text, valText, Val.pyEq] at e ⊢
    rw [e]
    simp
  · have e := strip_eq_self (ht (c!" " ++ o ++ c!" --name=" ++ w ++ c!" --when=pre-instal"))
    simp [F26_SnapshotData.cls, F26_SnapshotData.strText, F26_SnapshotData.args, Out.render, pieceText, Cond.eval, Frag.render, h1, h2, h3, Val.fmt, snapToks, whenWord, Tok.text, valText, Val.pyEq] at e ⊢
    rw [e]
    simp

theorem snap_words {o w : Str} {b : Bool} (ho : PlainWord o) (hw : PlainValue w) : WordsOk (snapWords o w b) := by
  intro x hx
  obtain ⟨y, hy, rfl⟩ := List.mem_map.1 hx
  rcases List.mem_cons.1 hy with rfl | hy
  · exact bareWord_ok ho.1 ho.2.2
  · simp only [snapToks, List.map_cons, List.map_nil, List.mem_cons, List.not_mem_nil, or_false] at hy
    rcases hy with rfl | rfl
    · refine bareWord_ok (by simp [Tok.text]) fun c hc => ?_
      simp only [Tok.text, valText] at hc
      have h0 : ∀ c ∈ c!"--name=", PlainChar c := by decide
      rcases List.mem_append.1 hc with hc | hc
      · exact h0 c (List.mem_append_left _ hc)
      · rcases List.mem_cons.1 hc with rfl | hc
        · decide
        · exact hw.2 c hc
    · cases b <;> exact bareWord_ok (by decide) (by decide)

abbrev snapInfo : Info := F26_Snapshot.info F26_SnapshotData.cls

theorem snap_parse {o w : Str} {b : Bool} (ho : startsWith o c!"-" = false) {vg lv : Str} (hvg : vg ≠ []) (hlv : lv ≠ []) (hs : (Val.str o).split '/' = .list [vg, lv]) (i : Inst CState)
    (hf : ∀ e ∈ i.attrs.data, (e.getD c!"name").pyEq (.str w) = false) :
    ∃ j d', F26_Snapshot.parse snapInfo (o :: (snapToks w b).map Tok.text) (fun _ => none) i = (j, .ok d') ∧ j.attrs.data = i.attrs.data ∧ SnapIs d' o w b := by
  have hgv : getValues (some (i.lineno : Int)) snapInfo.op.actions[0] [o] = .ok (.str o) := by
    have e : ([o].erase c!"--" : List Str) = [o] := erase_word ho
    unfold getValues
    rw [show (snapInfo.op.actions[0] : Action).opts = [] from by decide +kernel, if_pos rfl, e]
    rfl
  have hok : ∀ t ∈ snapToks w b, TokOk snapInfo.op (some (i.lineno : Int)) t := by
    intro t ht
    simp only [snapToks, List.mem_cons, List.not_mem_nil, or_false] at ht
    rcases ht with rfl | rfl
    · exact ⟨_, _, rfl, .inl rfl, rfl⟩
    · cases b <;> exact ⟨_, _, rfl, .inl rfl, rfl⟩
  obtain ⟨ns, hk, hns⟩ := known_front (l := some (i.lineno : Int)) (p := snapInfo.op) (a := snapInfo.op.actions[0]) (by decide +kernel) (by decide +kernel) (by decide +kernel) (by decide +kernel) ho (by rfl)
    (ts := snapToks w b) (fun t ht => (hok t ht).ok.fits) (fun t ht => by obtain ⟨a, v, h1, -, h2⟩ := hok t ht; exact ⟨a, v, h1, h2⟩) hgv (by
      have : ∀ c ∈ snapInfo.op.actions, c.required = true → c.id = snapInfo.op.actions[0].id ∨ c.id ∈ [snapInfo.op.actions[1].id, snapInfo.op.actions[2].id] := by decide +kernel
      exact this) (by
      intro t ht c hc
      simp only [snapToks, List.mem_cons, List.not_mem_nil, or_false] at ht
      rcases ht with rfl | rfl
      · cases hc; decide
      · cases hc; decide)
  obtain ⟨g1, g2⟩ := setTo_get (obj := F26_SnapshotData.init) (by simp) hns
  have u1 : (setToObj ns F26_SnapshotData.init).get c!"origin" = some (.str o) := g1
  have u2 : (setToObj ns F26_SnapshotData.init).get c!"name" = some (.str w) := by cases b <;> exact g2 _ (by decide) _ rfl (by simp)
  have u3 : (setToObj ns F26_SnapshotData.init).get c!"when" = some (.int (if b then 1 else 0)) := by cases b <;> exact g2 _ (by decide) _ rfl (by simp)
  have hset : ∀ (k : Str) (y z : Val) (a : Ns), k ≠ c!"lineno" → a.get k = some z → (a.set c!"lineno" y).getD k = z := by
    intro k y z a h2 h3
    unfold Ns.getD
    rw [Ns.get_set, if_neg fun e => h2 e.symm, h3]; rfl
  have w1 := fun y => hset c!"origin" y _ _ (by decide) u1
  have w2 := fun y => hset c!"name" y _ _ (by decide) u2
  have w3 := fun y => hset c!"when" y _ _ (by decide) u3
  refine ⟨_, _, (M.step (M.parseArgs_ok (parseArgs_of_known hk))).trans ((M.step (M.lineno_ok _ _)).trans ((M.step (M.dataList_ok _ _)).trans ((M.step (M.failIf_no ?_)).trans ((M.step (M.failIf_no ?_)).trans
    ((M.step (M.failIf_no ?_)).trans ((M.step (M.failIf_no ?_)).trans rfl)))))), rfl, w1 _, w2 _, w3 _⟩
  · rw [List.any_eq_false]
    intro e he
    have e' := (congrArg (fun x : Val => (e.getD c!"name").pyEq x) (w2 (.int i.lineno))).trans (hf e he)
    exact fun e'' => Bool.false_ne_true (e'.symm.trans e'')
  · exact (congrArg (fun x => decide (x = Val.none)) (w3 _)).trans (by cases b <;> rfl)
  · refine (congrArg (fun x : Val => (decide ((x.split '/').len ≠ 2) || decide ((((x.split '/').items)[0]?.getD []).length = 0) || decide ((((x.split '/').items)[1]?.getD []).length = 0))) (w1 _)).trans ?_
    simp only [hs, Val.len, Val.items]
    simp [hvg, hlv]
  · exact (congrArg (fun x : Val => !(x.pyEq (Val.str [])) && !(snapInfo.typeMap.any (fun p => p.2.pyEq x))) (w3 _)).trans (by cases b <;> rfl)

/-! ## The objects of a session -/

/-- The object can be written so that it is read again: an origin and a name without blanks, quotes and the like. -/
def SnapPlain (d : Ns) : Prop := ∃ o w b, PlainWord o ∧ PlainValue w ∧ SnapIs d o w b

/-- What is restored. -/
def SameSnap (d d' : Ns) : Prop := d'.getD c!"origin" = d.getD c!"origin" ∧ d'.getD c!"name" = d.getD c!"name" ∧ d'.getD c!"when" = d.getD c!"when"

/-- C84: in every session, if each snapshot is plain, the text of the command is stable, and a new handler that reads it has the same snapshots in the same order.  That the line of
each snapshot is accepted follows from the rules that every session keeps (C60): an origin of two parts, and no name twice. -/
theorem C84_restores {v : Nat} (hv : Supported v) {h : Handler CState Ns} (s : Session v h) (ho : objectOf h c!"snapshot" ≠ none) (hall : ∀ d ∈ dataOf h c!"snapshot", SnapPlain d) :
    StableText v c!"snapshot" (textOf h c!"snapshot") ∧
    List.Forall₂ SameSnap (dataOf h c!"snapshot") (dataOf (runCommands Handler.dispatch 0 (lineItems (textOf h c!"snapshot")) (newHandler v)).1 c!"snapshot") := by
  have hr := C60_snapshot hv s
  have hu := C60_snapshot_names hv s
  obtain ⟨o, ho⟩ := Option.ne_none_iff_exists'.1 ho
  have hc := object_class hv s ho
  rw [object_data ho] at hall hr hu ⊢
  have htx : textOf h c!"snapshot" = o.cls.str o.inst := by unfold textOf; rw [ho]
  rw [htx]
  obtain ⟨c, i⟩ := o
  simp only at hc hall hr hu ⊢
  obtain rfl := commandMaps_snapshot_class _ (supported_mem hv) c hc
  refine list_fresh hv (by decide) (by decide) hc (by decide) (S := fun d e => (d.getD c!"name").pyEq (e.getD c!"name") = false) (fun d d' e h1 h2 => ?_) (fun d hd => ?_) hu
  · rw [h1.2.1]; exact h2
  · obtain ⟨o, w, b, h1, h2, h3⟩ := hall d hd
    obtain ⟨vg, lv, h4, h5, h6⟩ := (hr d hd).origin
    rw [h3.1] at h6
    refine ⟨_, snap_words h1 h2, snap_text h3, fun i hi => ?_⟩
    unfold snapWords
    rw [texts_bare]
    obtain ⟨j, d', e1, e2, e3⟩ := snap_parse (b := b) (w := w) h1.2.1 h4 h5 h6 i (by rw [← h3.2.1]; exact hi)
    exact ⟨j, d', e1, e2, by rw [snap_text e3, snap_text h3], by rw [e3.1, h3.1], by rw [e3.2.1, h3.2.1], by rw [e3.2.2, h3.2.2]⟩

/-- C84: `C83_file` with less to ask. -/
theorem C84_file {v : Nat} (hv : Supported v) (hl : v ∉ liloVersions) (ls : List (Nat × List Str × Str))
    (hst : ∀ n c, (commandMap v).lookup n = some c → c.prio ≠ none → ¬ Unread (readLines v ls) n → fixedTextsOf v n = none → ¬ WordSettings v n (attrsOf (readLines v ls) n) →
      ¬ RawSettings n (attrsOf (readLines v ls) n) → ¬ SmallSettings v n (textOf (readLines v ls) n) (attrsOf (readLines v ls) n) →
      ¬ (n ∈ [c!"sshkey", c!"sshpw"] ∧ ∀ d ∈ dataOf (readLines v ls) n, SshPlain n d) → ¬ (n = c!"snapshot" ∧ ∀ d ∈ dataOf (readLines v ls) n, SnapPlain d) →
      ¬ (textOf (readLines v ls) n = [] ∧ c.str c.new.inst = []) →
      (ListCommand v n ∧ n ∈ lossless.map (·.1) ∧ ∀ d ∈ dataOf (readLines v ls) n, WritesAll v n d ∧ OneLine v n d) ∨
      (OneLineOf v ls n ∧ KeepsAll v n (attrsOf (readLines v ls) n) ∧ OneCommand (textOf (readLines v ls) n)) ∨ StableText v n (textOf (readLines v ls) n))
    (hR : ∀ n, textOf (readLines v ls) n ≠ [] → ∀ a ∈ rivals n, textOf (readLines v ls) a = []) (k : Nat) :
    let r := runCommands Handler.dispatch k (lineItems (readLines v ls).str) (newHandler v)
    r.2 = none ∧ r.1.str = (readLines v ls).str := by
  refine C83_file hv hl ls (fun n c hc hp hu hf hw hr hs hk he => ?_) hR k
  by_cases h1 : n = c!"snapshot" ∧ ∀ d ∈ dataOf (readLines v ls) n, SnapPlain d
  · obtain ⟨rfl, h1⟩ := h1
    refine .inr (.inr (C84_restores hv (readLines_session v ls) (fun ho => he ⟨?_, ?_⟩) h1).1)
    · unfold textOf; rw [ho]
    · obtain rfl := commandMaps_snapshot_class _ (supported_mem hv) c hc
      rfl
  · exact hst n c hc hp hu hf hw hr hs hk h1 he

/-! ### The hypotheses can be met -/

def snapFile : List (Nat × List Str × Str) :=
  [(1, [c!"snapshot", c!"--when", c!"pre-install", c!"vg/home", c!"--name", c!"a"], []), (2, [c!"snapshot", c!"vg/root", c!"--when=post-install", c!"--name=b"], []),
   (3, [c!"snapshot", c!"vg/root", c!"--when=post-install", c!"--name=a"], [])]

/-- Three lines; the third uses a name again and is refused. -/
theorem C84_case :
    let h := readLines Version.F34 snapFile
    textOf h c!"snapshot" = c!"snapshot vg/home --name=a --when=pre-install\nsnapshot vg/root --name=b --when=post-install\n" ∧ (objectOf h c!"snapshot").isSome ∧
    (dataOf h c!"snapshot").map (fun d => (d.getD c!"origin", d.getD c!"name", d.getD c!"when")) = [(.str c!"vg/home", .str c!"a", .int 1), (.str c!"vg/root", .str c!"b", .int 0)] ∧
    PlainWord c!"vg/home" ∧ PlainWord c!"vg/root" ∧ PlainValue c!"a" ∧ PlainValue c!"b" := by decide +kernel

/-- What is not restored: a name with a blank, a comment sign, a quotation mark, a backslash, or of a line separator only (/repo/pykickstart/commands/snapshot.py:60-63 writes it without quotes). -/
theorem C84_lost : ∀ w ∈ [c!"a b", c!"a#b", c!"a'b", c!"a\\b", c!"\u2028"],
    textOf (readLines Version.F34 [(1, [c!"snapshot", c!"vg/a", c!"--name=" ++ w, c!"--when=pre-install"], [])]) c!"snapshot" = c!"snapshot vg/a --name=" ++ w ++ c!" --when=pre-install\n" ∧
    ¬ StableText Version.F34 c!"snapshot" (textOf (readLines Version.F34 [(1, [c!"snapshot", c!"vg/a", c!"--name=" ++ w, c!"--when=pre-install"], [])]) c!"snapshot") := by decide +kernel

end Ks
