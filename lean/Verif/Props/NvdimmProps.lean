import Verif.Props.SnapProps
/-!
# C85: the NVDIMM devices are read again as they are written
-/
namespace Ks

open Cmd

/-! ## A list of lines between a comment and a blank line -/

theorem runClass_str {name : Str} {prio : Option Int} {init : Ns} {dc : DataCls} {parse : List Str → M Ns} {st st' : List Str → Str} {t : Str → Option Bool} (items : List Item) (k : Nat) (i : Inst CState) :
    runClass (listCmd name prio init dc parse st) t k items i = runClass (listCmd name prio init dc parse st') t k items i := by
  induction items generalizing k i with
  | nil => rfl
  | cons it rest ih =>
    cases it with
    | cmd l ws =>
      cases ws with
      | nil => exact ih _ _
      | cons m args =>
        rw [runClass, runClass]
        have e : (listCmd name prio init dc parse st).parse t args (i.noted m l (k + 1)) = (listCmd name prio init dc parse st').parse t args (i.noted m l (k + 1)) := rfl
        rw [e]
        split
        · rfl
        · exact ih _ _
    | skip l => exact ih _ _
    | script _ _ _ _ _ => exact ih _ _
    | pkgs _ _ _ _ => exact ih _ _
    | null _ _ _ _ _ => exact ih _ _
    | incl _ _ => exact ih _ _

theorem runClass_end {c : Command} {t : Str → Option Bool} {items : List Item} {k : Nat} {i j : Inst CState} (l : Str) (h : runClass c t k items i = some j) : runClass c t k (items ++ [.skip l]) i = some j := by
  induction items generalizing k i with
  | nil => exact h
  | cons it rest ih =>
    cases it with
    | cmd l ws =>
      cases ws with
      | nil => exact ih h
      | cons m args =>
        rw [List.cons_append, runClass]
        rw [runClass] at h
        split at h
        · cases h
        · exact ih h
    | skip l => exact ih h
    | script _ _ _ _ _ => exact ih h
    | pkgs _ _ _ _ => exact ih h
    | null _ _ _ _ _ => exact ih h
    | incl _ _ => exact ih h

/-- `list_back` for a list with a comment before and a blank line after it. -/
theorem wrapped_back {v : Nat} (hv : Supported v) {n : Str} (hn : PlainWord n) (hp : n.head? ≠ some '%') {name : Str} {prio : Option Int} {init : Ns} {dc : DataCls} {parse : List Str → M Ns} {hd : Str}
    (hhd : hd.getLast? = some '\n' ∧ lineItems hd = [.skip hd] ∧ SkipLine hd ∧ hd.take 10 ≠ c!"#platform=")
    (hc : (commandMap v).lookup n = some (listCmd name prio init dc parse (wrappedListStr hd))) (hla : looksAt (attrName name) = []) {R : Ns → Ns → Prop} {ds : List Ns}
    (h : ∀ d ∈ ds, ReadAlike n dc.str parse R d) :
    StableText v n (wrappedListStr hd (ds.map dc.str)) ∧ List.Forall₂ R ds (dataOf (runCommands Handler.dispatch 0 (lineItems (wrappedListStr hd (ds.map dc.str))) (newHandler v)).1 n) := by
  generalize hC : listCmd name prio init dc parse (wrappedListStr hd) = C at hc
  have hitems : lineItems (wrappedListStr hd (ds.map dc.str)) = [] ∧ ds = [] ∨
      lineItems (wrappedListStr hd (ds.map dc.str)) = .skip hd :: (lineItems (ds.map dc.str).flatten ++ [.skip c!"\n"]) ∧ (wrappedListStr hd (ds.map dc.str)).getLast? = some '\n' := by
    have hl := (lines_run (name := name) (prio := prio) (init := init) hn hp h 0 C.new.inst).1
    cases ds with
    | nil => exact .inl ⟨rfl, rfl⟩
    | cons d ds =>
      right
      obtain ⟨g, -, ht, -⟩ := h d (by simp)
      have hne : (((d :: ds).map dc.str).flatten).isEmpty = false := by
        rw [List.map_cons, List.flatten_cons, ht]
        cases n with
        | nil => exact absurd rfl hn.1
        | cons _ _ => rfl
      have e : wrappedListStr hd ((d :: ds).map dc.str) = hd ++ (((d :: ds).map dc.str).flatten ++ c!"\n") := by
        unfold wrappedListStr
        rw [hne]
        simp only [Bool.false_eq_true, if_false, List.append_assoc]
      refine ⟨?_, by rw [e]; simp [List.getLast?_append]⟩
      rw [e, lineItems_append (.inr hhd.1), lineItems_append hl, hhd.2.1]
      rfl
  have hrun : ∃ j ds', runClass C (fun _ => none) 0 (lineItems (wrappedListStr hd (ds.map dc.str))) C.new.inst = some j ∧ j.attrs.data = ds' ∧
      List.Forall₂ (fun d d' => dc.str d' = dc.str d ∧ R d d') ds ds' := by
    rcases hitems with ⟨e, rfl⟩ | ⟨e, -⟩
    · rw [e]
      exact ⟨_, [], rfl, by subst hC; rfl, .nil⟩
    · rw [e]
      obtain ⟨-, -, j, ds', h3, h4, h5⟩ := lines_run (name := name) (prio := prio) (init := init) hn hp h 1 C.new.inst
      rw [runClass_str (st' := wrappedListStr hd), hC] at h3
      refine ⟨j, ds', runClass_end _ h3, ?_, h5⟩
      rw [h4]
      subst hC
      rfl
  obtain ⟨j, ds', h3, h4, h5⟩ := hrun
  have ht : ∀ a ∈ looksAt (attrName C.name), (fun _ => none : Str → Option Bool) a = (newHandler v).seenAttr a := by
    intro a ha
    rw [show C.name = name from by subst hC; rfl, hla] at ha
    cases ha
  have hown : ∀ it ∈ lineItems (wrappedListStr hd (ds.map dc.str)), PlainOwn v n it := by
    intro it hit
    rcases hitems with ⟨e, -⟩ | ⟨e, -⟩
    · rw [e] at hit; cases hit
    · rw [e] at hit
      rcases List.mem_cons.1 hit with rfl | hit
      · exact hhd.2.2
      · rcases List.mem_append.1 hit with hit | hit
        · obtain ⟨l, ws, rfl, hcl⟩ := (lines_run (name := name) (prio := prio) (init := init) hn hp h 0 C.new.inst).2.1 it hit
          exact ⟨hcl, rfl⟩
        · rw [List.mem_singleton] at hit
          subst hit
          exact ⟨by decide, by decide⟩
  have hterm : wrappedListStr hd (ds.map dc.str) = [] ∨ (wrappedListStr hd (ds.map dc.str)).getLast? = some '\n' := by
    rcases hitems with ⟨-, rfl⟩ | ⟨-, e⟩
    · exact .inl rfl
    · exact .inr e
  have htx : C.str j = wrappedListStr hd (ds.map dc.str) := by
    subst hC
    show wrappedListStr hd (j.attrs.data.map dc.str) = _
    rw [h4]
    congr 1
    clear h3 h4 hown hitems hterm h
    induction h5 with
    | nil => rfl
    | cons a _ ih => rw [List.map_cons, List.map_cons, a.1, ih]
  refine ⟨stable_of_class hv hc ht hterm hown h3 htx, ?_⟩
  obtain ⟨r, g1, g2⟩ := new_object hv hc
  obtain ⟨-, e2⟩ := run_class hv (fun it hit => plainOwn_own hv hc (hown it hit)) g1 .new (.refl _) g2 ht h3
  have hsh := (runH_session (v := v) .new (lineItems (wrappedListStr hd (ds.map dc.str))) 0).2
  have e : (runH 0 (lineItems (wrappedListStr hd (ds.map dc.str))) (newHandler v)).1.Serves n r := by unfold Handler.Serves; rw [hsh.commands]; exact g1
  show List.Forall₂ R ds (dataOf (runH 0 (lineItems (wrappedListStr hd (ds.map dc.str))) (newHandler v)).1 n)
  rw [data_serves e e2]
  show List.Forall₂ R ds j.attrs.data
  rw [h4]
  exact h5.imp fun _ _ a => a.2

/-! ## `nvdimm` -/

/-- What a line says: to use a namespace or block devices, or to reconfigure a namespace with a sector size. -/
inductive Nv
  | useName (n : Str)
  | useDevs (l : List Str)
  | reconf (n : Str) (k : Int)

/-- What the object says. -/
def NvIs (d : Ns) : Nv → Prop
  | .useName n => d.getD c!"action" = .str c!"use" ∧ d.getD c!"namespace" = .str n ∧ (d.getD c!"blockdevs").truthy = false
  | .useDevs l => d.getD c!"action" = .str c!"use" ∧ (d.getD c!"namespace").truthy = false ∧ d.getD c!"blockdevs" = .list l
  | .reconf n k => d.getD c!"action" = .str c!"reconfigure" ∧ d.getD c!"namespace" = .str n ∧ d.getD c!"mode" = .str c!"sector" ∧ d.getD c!"sectorsize" = .int k

/-- Nothing in it has to be quoted. -/
def Nv.Plain : Nv → Prop
  | .useName n => PlainValue n
  | .useDevs l => l ≠ [] ∧ ∀ x ∈ l, PlainElem x
  | .reconf n _ => PlainValue n

def Nv.verb : Nv → Str
  | .reconf _ _ => c!"reconfigure"
  | _ => c!"use"

def Nv.toks : Nv → List Tok
  | .useName n => [⟨c!"--namespace", some n⟩]
  | .useDevs l => [⟨c!"--blockdevs", some (joinWith c!"," l)⟩]
  | .reconf n k => [⟨c!"--namespace", some n⟩, ⟨c!"--mode", some c!"sector"⟩, ⟨c!"--sectorsize", some (intStr k)⟩]

def Nv.words (x : Nv) : List (Str × Word) := (x.verb :: x.toks.map Tok.text).map bareWord

theorem trim_end {s w : Str} (hw : PlainValue w) : Trimmed (c!"nvdimm" ++ s ++ w) := by
  refine ⟨fun c hc => by cases hc; rfl, fun c hc => ?_⟩
  have hl : ∃ x, w.getLast? = some x := by
    cases h : w.getLast? with
    | none => exact absurd (List.getLast?_eq_none_iff.1 h) hw.1
    | some x => exact ⟨x, rfl⟩
  obtain ⟨x, hx⟩ := hl
  rw [List.getLast?_append, hx] at hc
  rw [← Option.some.inj hc]
  exact (hw.2 x (List.mem_of_getLast? hx)).2

theorem int_plain (k : Int) : PlainValue (intStr k) := by
  refine ⟨intStr_ne_nil k, fun c hc => ?_⟩
  rcases intStr_chars k c hc with h | rfl
  · have h' : 48 ≤ c.toNat ∧ c.toNat ≤ 57 := by simpa [isDigit] using h
    have hd : ∀ m, m < 10 → PlainChar (Char.ofNat (48 + m)) := by decide
    have e := hd (c.toNat - 48) (by omega)
    rw [show 48 + (c.toNat - 48) = c.toNat by omega, Char.ofNat_toNat] at e
    exact e
  · decide

theorem join_value {l : List Str} (h : l ≠ []) (hl : ∀ x ∈ l, PlainElem x) : PlainValue (joinWith c!"," l) := by
  refine ⟨?_, join_plain hl⟩
  cases l with
  | nil => exact absurd rfl h
  | cons a t =>
    have ha := (hl a (by simp)).1
    cases t with
    | nil => simpa [joinWith] using ha
    | cons b t => rw [joinWith]; simp

theorem nv_text {d : Ns} {x : Nv} (h : NvIs d x) (hx : x.Plain) (hk : x.verb = c!"reconfigure" → (d.getD c!"sectorsize").truthy = true) : F28_NvdimmData.cls.str d = c!"nvdimm" ++ wordsText x.words ++ c!"\n" := by
  have tr : ∀ n : Str, n ≠ [] → (Val.str n).truthy = true := fun n hn => by cases n <;> first | exact absurd rfl hn | rfl
  unfold Nv.words
  rw [wordsText_bare]
  cases x with
  | useName n =>
    obtain ⟨h1, h2, h3⟩ := h
    have e := strip_eq_self (trim_end (s := c!" use --namespace=") hx)
    simp [F28_NvdimmData.cls, F28_NvdimmData.strText, F28_NvdimmData.args, Out.render, pieceText, Cond.eval, Frag.render, h1, h2, h3, Val.fmt, Nv.verb, Nv.toks, Tok.text, valText, Val.pyEq, tr n hx.1] at e ⊢
    rw [e]
    simp
  | useDevs l =>
    obtain ⟨h1, h2, h3⟩ := h
    have tl : (Val.list l).truthy = true := by
      cases l with
      | nil => exact absurd rfl hx.1
      | cons _ _ => rfl
    have e := strip_eq_self (trim_end (s := c!" use --blockdevs=") (join_value hx.1 hx.2))
    simp [F28_NvdimmData.cls, F28_NvdimmData.strText, F28_NvdimmData.args, Out.render, pieceText, Cond.eval, Frag.render, h1, h2, h3, Val.fmt, Val.items, Nv.verb, Nv.toks, Tok.text, valText, Val.pyEq, tl] at e ⊢
    rw [e]
    simp
  | reconf n k =>
    obtain ⟨h1, h2, h3, h4⟩ := h
    have tk : (Val.int k).truthy = true := by rw [← h4]; exact hk rfl
    have e := strip_eq_self (trim_end (s := c!" reconfigure --namespace=" ++ n ++ c!" --mode=sector --sectorsize=") (int_plain k))
    simp [F28_NvdimmData.cls, F28_NvdimmData.strText, F28_NvdimmData.args, Out.render, pieceText, Cond.eval, Frag.render, h1, h2, h3, h4, Val.fmt, Nv.verb, Nv.toks, Tok.text, valText, Val.pyEq, tr n hx.1, tk] at e ⊢
    rw [e]
    simp

theorem nv_words {x : Nv} (hx : x.Plain) : WordsOk x.words := by
  have tok : ∀ (m w : Str), (∀ c ∈ m ++ c!"=", PlainChar c) → PlainValue w → (bareWord (Tok.text ⟨m, some w⟩)).1 ≠ [] ∧ (∀ c ∈ (bareWord (Tok.text ⟨m, some w⟩)).1, c = ' ') ∧
      (bareWord (Tok.text ⟨m, some w⟩)).2.Ok true ∧ NoBreak (bareWord (Tok.text ⟨m, some w⟩)).2.render := by
    intro m w hm hw
    refine bareWord_ok (by simp [Tok.text, valText]) fun c hc => ?_
    simp only [Tok.text, valText] at hc
    rcases List.mem_append.1 hc with hc | hc
    · exact hm c (List.mem_append_left _ hc)
    · rcases List.mem_cons.1 hc with rfl | hc
      · decide
      · exact hw.2 c hc
  intro y hy
  obtain ⟨z, hz, rfl⟩ := List.mem_map.1 hy
  rcases List.mem_cons.1 hz with rfl | hz
  · have h0 : ∀ w ∈ [c!"use", c!"reconfigure"], w ≠ [] ∧ ∀ c ∈ w, PlainChar c := by decide
    have h1 : x.verb ∈ [c!"use", c!"reconfigure"] := by cases x <;> simp [Nv.verb]
    exact bareWord_ok (h0 _ h1).1 (h0 _ h1).2
  · cases x with
    | useName n =>
      simp only [Nv.toks, List.map_cons, List.map_nil, List.mem_singleton] at hz
      subst hz
      exact tok _ _ (by decide) hx
    | useDevs l =>
      simp only [Nv.toks, List.map_cons, List.map_nil, List.mem_singleton] at hz
      subst hz
      exact tok _ _ (by decide) (join_value hx.1 hx.2)
    | reconf n k =>
      simp only [Nv.toks, List.map_cons, List.map_nil, List.mem_cons, List.not_mem_nil, or_false] at hz
      rcases hz with rfl | rfl | rfl
      · exact tok _ _ (by decide) hx
      · exact bareWord_ok (by decide) (by decide)
      · exact tok _ _ (by decide) (int_plain k)

abbrev nvInfo : Info := F28_Nvdimm.info F28_NvdimmData.cls

theorem sector_value {l : Option Int} {s : Str} {k : Int} (h : tyInt s = .ok (.int k)) : getValues l nvInfo.op.actions[4] [s] = .ok (.int k) := by
  have e : getValue l nvInfo.op.actions[4] s = .ok (.int k) := by
    show (match tyInt s with | .ok v => Except.ok v | .error .value => .error (argErr c!"invalid value" l) | .error .type => .error (argErr c!"invalid value" l) | .error e => .error e) = _
    rw [h]
  show (do let v ← getValue l nvInfo.op.actions[4] s; checkValue l nvInfo.op.actions[4] v; return v) = _
  rw [e]
  rfl

theorem runKey_cons {p : OptParser} {l : Option Int} {d : Str} {t : Tok} {ts : List Tok} {o : Option Val} {a : Action} {v : Val} (h1 : p.lookup t.name = some a) (h2 : getValues l a t.val.toList = .ok v) :
    runKey p l d (t :: ts) o = runKey p l d ts (if a.dest = d then some (actVal a v (o.getD .none)) else o) := by
  rw [runKey, h1]
  simp only [h2]

theorem M.failIfNoLine_no {c : Bool} (hc : c = false) {msg : Str} {h : Str → Option Bool} {i : Inst CState} : M.failIfNoLine c msg h i = (i, .ok ()) := by
  subst hc
  rfl

theorem M.when_two (b b1 b2 : Bool) (w1 w2 : Warn) (h : Str → Option Bool) (i : Inst CState) :
    M.when b (do M.when b1 (M.warn w1); M.when b2 (M.warn w2)) h i =
      ({ i with attrs := { i.attrs with warned := i.attrs.warned ++ if b then (if b1 then [w1] else []) ++ (if b2 then [w2] else []) else [] } }, .ok ()) := by
  cases b
  · simp only [M.when, Bool.false_eq_true, if_false, List.append_nil]; rfl
  · show (do M.when b1 (M.warn w1); M.when b2 (M.warn w2) : M Unit) h i = _
    rw [M.step (M.when_warn b1 w1 h i), M.when_warn]
    simp only [if_true, List.append_assoc]

theorem M.if_yes {α : Type} {c : Bool} (hc : c = true) {a b : M α} {h : Str → Option Bool} {i : Inst CState} : (if c = true then a else b) h i = a h i := by rw [if_pos hc]

theorem M.if_no {α : Type} {c : Bool} (hc : c = false) {a b : M α} {h : Str → Option Bool} {i : Inst CState} : (if c = true then a else b) h i = b h i := by rw [if_neg (by rw [hc]; simp)]

theorem nv_parse {x : Nv} (hx : x.Plain) (hk : ∀ n k, x = .reconf n k → k ≠ 0) (i : Inst CState) :
    ∃ j d', F28_Nvdimm.parse nvInfo (x.verb :: x.toks.map Tok.text) (fun _ => none) i = (j, .ok d') ∧ j.attrs.data = i.attrs.data ∧ NvIs d' x ∧ (x.verb = c!"reconfigure" → (d'.getD c!"sectorsize").truthy = true) := by
  have hok : ∀ t ∈ x.toks, TokOk nvInfo.op (some (i.lineno : Int)) t := by
    intro t ht
    cases x with
    | useName n =>
      simp only [Nv.toks, List.mem_singleton] at ht
      subst ht
      exact ⟨_, _, rfl, .inl rfl, rfl⟩
    | useDevs l =>
      simp only [Nv.toks, List.mem_singleton] at ht
      subst ht
      exact ⟨_, _, rfl, .inl rfl, rfl⟩
    | reconf n k =>
      simp only [Nv.toks, List.mem_cons, List.not_mem_nil, or_false] at ht
      rcases ht with rfl | rfl | rfl
      · exact ⟨_, _, rfl, .inl rfl, rfl⟩
      · exact ⟨_, _, rfl, .inl rfl, rfl⟩
      · exact ⟨nvInfo.op.actions[4], _, rfl, .inl rfl, sector_value (tyInt_intStr k)⟩
  obtain ⟨ns, hkn, hns⟩ := known_front (l := some (i.lineno : Int)) (p := nvInfo.op) (a := nvInfo.op.actions[0]) (by decide +kernel) (by decide +kernel) (by decide +kernel) (by decide +kernel) (w := x.verb) (by cases x <;> rfl) (by rfl)
    (ts := x.toks) (fun t ht => (hok t ht).ok.fits) (fun t ht => by obtain ⟨a, v, h1, -, h2⟩ := hok t ht; exact ⟨a, v, h1, h2⟩) (v := .list [x.verb]) (by cases x <;> rfl) (by
      have : ∀ c ∈ nvInfo.op.actions, c.required = true → c.id = nvInfo.op.actions[0].id := by decide +kernel
      exact fun b hb hr => .inl (this b hb hr)) (by
      have : ∀ y ∈ nvInfo.op.strings, y.1 ∈ [c!"--namespace", c!"--blockdevs", c!"--mode", c!"--sectorsize"] → y.2.dest ≠ nvInfo.op.actions[0].dest := by decide +kernel
      intro t ht c hc
      refine this _ (lookup_mem_pair hc) ?_
      cases x <;> simp only [Nv.toks, List.mem_cons, List.not_mem_nil, or_false] at ht
      · rw [ht]; simp
      · rw [ht]; simp
      · rcases ht with rfl | rfl | rfl <;> simp)
  obtain ⟨g1, g2⟩ := setTo_get (obj := F28_NvdimmData.init) (by simp) hns
  have hga : ns.getD c!"action" = .list [x.verb] := by unfold Ns.getD; rw [show ns.get c!"action" = _ from hns.2.1]; rfl
  have hset : ∀ (k : Str) (y z u : Val) (a : Ns), k ≠ c!"lineno" → k ≠ c!"action" → a.get k = some z → ((a.set c!"lineno" y).set c!"action" u).getD k = z := by
    intro k y z u a h1 h2 h3
    unfold Ns.getD
    rw [Ns.get_set, if_neg fun e => h2 e.symm, Ns.get_set, if_neg fun e => h1 e.symm, h3]; rfl
  have wa : ∀ (y u : Val) (a : Ns), ((a.set c!"lineno" y).set c!"action" u).getD c!"action" = u := by
    intro y u a
    unfold Ns.getD
    rw [Ns.get_set, if_pos rfl]; rfl
  have keep : ∀ k, k ≠ c!"action" → runKey nvInfo.op (some (i.lineno : Int)) k x.toks (nvInfo.op.defaults.get k) = some .none → (setToObj ns F28_NvdimmData.init).get k = F28_NvdimmData.init.get k := by
    intro k hk h
    rw [C16_set_to_obj _ _ hns.1, hns.2.2 k hk, h]
  cases x with
  | useName n =>
    have tn : (Val.str n).truthy = true := by cases n <;> first | exact absurd rfl hx.1 | rfl
    have u1 : (setToObj ns F28_NvdimmData.init).get c!"namespace" = some (.str n) := g2 _ (by decide) _ rfl (by simp)
    have u2 : (setToObj ns F28_NvdimmData.init).get c!"blockdevs" = some (.list []) := keep _ (by decide) rfl
    have w1 := fun y u => hset c!"namespace" y _ u _ (by decide) (by decide) u1
    have w2 := fun y u => hset c!"blockdevs" y _ u _ (by decide) (by decide) u2
    refine ⟨_, _, (M.step (M.parseKnown_ok hkn)).trans ((M.step (M.failIf_no rfl)).trans ((M.step (M.lineno_ok _ _)).trans
      ((M.step (M.lift_ok (show (ns.getD c!"action").index 0 = .ok (Val.str c!"use") by rw [hga]; rfl))).trans ((M.step (M.failIfNoLine_no ?_)).trans ((M.step (M.dataList_ok _ _)).trans
      ((M.step (M.when_two _ _ _ _ _ _ _)).trans ((M.if_no rfl).trans ((M.step ((M.when_yes rfl).trans (M.failIfNoLine_no ?_))).trans rfl)))))))), rfl, ⟨wa _ _ _, w1 _ _, (congrArg Val.truthy (w2 _ _)).trans rfl⟩, fun e => by cases e⟩
    · exact (congrArg (fun z : Val => _ && z.truthy) (w2 _ _)).trans (by simp [Val.truthy])
    · exact (congrArg (fun z : Val => !z.truthy && _) (w1 _ _)).trans (by simp [tn])
  | useDevs l =>
    have tl : (Val.list l).truthy = true := by
      cases l with
      | nil => exact absurd rfl hx.1
      | cons _ _ => rfl
    have u1 : (setToObj ns F28_NvdimmData.init).get c!"namespace" = some (.str []) := keep _ (by decide) rfl
    have u2 : (setToObj ns F28_NvdimmData.init).get c!"blockdevs" = some (.list l) := by
      have e : (setToObj ns F28_NvdimmData.init).get c!"blockdevs" = some (.list (commaSplit (joinWith c!"," l))) := g2 _ (by decide) _ rfl (by simp)
      rw [e, comma_plain hx.2]
    have w1 := fun y u => hset c!"namespace" y _ u _ (by decide) (by decide) u1
    have w2 := fun y u => hset c!"blockdevs" y _ u _ (by decide) (by decide) u2
    refine ⟨_, _, (M.step (M.parseKnown_ok hkn)).trans ((M.step (M.failIf_no rfl)).trans ((M.step (M.lineno_ok _ _)).trans
      ((M.step (M.lift_ok (show (ns.getD c!"action").index 0 = .ok (Val.str c!"use") by rw [hga]; rfl))).trans ((M.step (M.failIfNoLine_no ?_)).trans ((M.step (M.dataList_ok _ _)).trans
      ((M.step (M.when_two _ _ _ _ _ _ _)).trans ((M.if_no rfl).trans ((M.step ((M.when_yes rfl).trans (M.failIfNoLine_no ?_))).trans rfl)))))))), rfl, ⟨wa _ _ _, (congrArg Val.truthy (w1 _ _)).trans rfl, w2 _ _⟩, fun e => by cases e⟩
    · exact (congrArg (fun z : Val => z.truthy && _) (w1 _ _)).trans (by simp [Val.truthy])
    · exact (congrArg (fun z : Val => _ && !z.truthy) (w2 _ _)).trans (by simp [tl])
  | reconf n k =>
    have tn : (Val.str n).truthy = true := by cases n <;> first | exact absurd rfl hx.1 | rfl
    have tk : (Val.int k).truthy = true := by simpa [Val.truthy] using hk n k rfl
    have u1 : (setToObj ns F28_NvdimmData.init).get c!"namespace" = some (.str n) := g2 _ (by decide) _ ((runKey_cons rfl rfl).trans ((runKey_cons rfl rfl).trans ((runKey_cons (a := nvInfo.op.actions[4]) rfl (sector_value (tyInt_intStr k))).trans rfl))) (by simp)
    have u2 : (setToObj ns F28_NvdimmData.init).get c!"blockdevs" = some (.list []) := keep _ (by decide) ((runKey_cons rfl rfl).trans ((runKey_cons rfl rfl).trans ((runKey_cons (a := nvInfo.op.actions[4]) rfl (sector_value (tyInt_intStr k))).trans rfl)))
    have u3 : (setToObj ns F28_NvdimmData.init).get c!"mode" = some (.str c!"sector") := g2 _ (by decide) _ ((runKey_cons rfl rfl).trans ((runKey_cons rfl rfl).trans ((runKey_cons (a := nvInfo.op.actions[4]) rfl (sector_value (tyInt_intStr k))).trans rfl))) (by simp)
    have u4 : (setToObj ns F28_NvdimmData.init).get c!"sectorsize" = some (.int k) := g2 _ (by decide) _ ((runKey_cons rfl rfl).trans ((runKey_cons rfl rfl).trans ((runKey_cons (a := nvInfo.op.actions[4]) rfl (sector_value (tyInt_intStr k))).trans rfl))) (by simp)
    have w1 := fun y u => hset c!"namespace" y _ u _ (by decide) (by decide) u1
    have w2 := fun y u => hset c!"blockdevs" y _ u _ (by decide) (by decide) u2
    have w3 := fun y u => hset c!"mode" y _ u _ (by decide) (by decide) u3
    have w4 := fun y u => hset c!"sectorsize" y _ u _ (by decide) (by decide) u4
    refine ⟨_, _, (M.step (M.parseKnown_ok hkn)).trans ((M.step (M.failIf_no rfl)).trans ((M.step (M.lineno_ok _ _)).trans
      ((M.step (M.lift_ok (show (ns.getD c!"action").index 0 = .ok (Val.str c!"reconfigure") by rw [hga]; rfl))).trans ((M.step (M.failIfNoLine_no ?_)).trans ((M.step (M.dataList_ok _ _)).trans
      ((M.step (M.when_two _ _ _ _ _ _ _)).trans ((M.if_yes rfl).trans ((M.step (M.failIfNoLine_no ?_)).trans ((M.step (M.failIfNoLine_no ?_)).trans rfl))))))))), rfl, ⟨wa _ _ _, w1 _ _, w3 _ _, w4 _ _⟩, fun _ => (congrArg Val.truthy (w4 _ _)).trans tk⟩
    · exact (congrArg (fun z : Val => _ && z.truthy) (w2 _ _)).trans (by simp [Val.truthy])
    · exact (congrArg (fun z : Val => !z.truthy) (w1 _ _)).trans (by simp [tn])
    · exact (congrArg (fun z : Val => _ && !z.truthy) (w4 _ _)).trans (by simp [tk])

/-! ## The objects of a session -/

/-- The object says one of the three things, in plain words. -/
def NvPlain (d : Ns) : Prop := ∃ x, NvIs d x ∧ x.Plain

/-- Both objects say the same. -/
def SameNv (d d' : Ns) : Prop := ∃ x, NvIs d x ∧ NvIs d' x

theorem nvdimm_class : ∀ y ∈ commandMaps, y.2.lookup c!"nvdimm" = none ∨ y.2.lookup c!"nvdimm" = some (F28_Nvdimm.cls F28_NvdimmData.cls) := by
  unfold commandMaps
  repeat' (first | exact List.forall_mem_nil _ | refine List.forall_mem_cons.2 ⟨?_, ?_⟩)
  all_goals first | exact .inl rfl | exact .inr rfl

/-- C85: in every session, if each NVDIMM device is plain, the text of the command is stable, and a new handler that reads it has objects that say the same in the same order.  That the
sector size is not 0, without which the line would be refused, follows from the rules that every session keeps (C60). -/
theorem C85_restores {v : Nat} (hv : Supported v) {h : Handler CState Ns} (s : Session v h) (ho : objectOf h c!"nvdimm" ≠ none) (hall : ∀ d ∈ dataOf h c!"nvdimm", NvPlain d) :
    StableText v c!"nvdimm" (textOf h c!"nvdimm") ∧
    List.Forall₂ SameNv (dataOf h c!"nvdimm") (dataOf (runCommands Handler.dispatch 0 (lineItems (textOf h c!"nvdimm")) (newHandler v)).1 c!"nvdimm") := by
  have hr := C60_nvdimm hv s
  obtain ⟨o, ho⟩ := Option.ne_none_iff_exists'.1 ho
  have hc := object_class hv s ho
  rw [object_data ho] at hall hr ⊢
  have htx : textOf h c!"nvdimm" = o.cls.str o.inst := by unfold textOf; rw [ho]
  rw [htx]
  obtain ⟨c, i⟩ := o
  simp only at hc hall hr ⊢
  rcases nvdimm_class _ (supported_mem hv) with e | e
  · cases e.symm.trans hc
  · obtain rfl := Option.some.inj (hc.symm.trans e)
    refine wrapped_back hv (by decide) (by decide) ⟨rfl, rfl, by decide, by decide⟩ hc (by decide) fun d hd => ?_
    obtain ⟨x, h1, h2⟩ := hall d hd
    have hk : x.verb = c!"reconfigure" → (d.getD c!"sectorsize").truthy = true := by
      intro hx
      cases x with
      | reconf n k => exact ((hr d hd).reconfigure h1.1).2 h1.2.2.1
      | useName n => cases hx
      | useDevs l => cases hx
    have hk' : ∀ n k, x = .reconf n k → k ≠ 0 := by
      rintro n k rfl rfl
      have := hk rfl
      rw [h1.2.2.2] at this
      cases this
    refine ⟨_, nv_words h2, nv_text h1 h2 hk, fun i => ?_⟩
    unfold Nv.words
    rw [texts_bare]
    obtain ⟨j, d', e1, e2, e3, e4⟩ := nv_parse h2 hk' i
    exact ⟨j, d', e1, e2, by rw [nv_text e3 h2 e4, nv_text h1 h2 hk], x, h1, e3⟩

/-- C85: `C84_file` with less to ask. -/
theorem C85_file {v : Nat} (hv : Supported v) (hl : v ∉ liloVersions) (ls : List (Nat × List Str × Str))
    (hst : ∀ n c, (commandMap v).lookup n = some c → c.prio ≠ none → ¬ Unread (readLines v ls) n → fixedTextsOf v n = none → ¬ WordSettings v n (attrsOf (readLines v ls) n) →
      ¬ RawSettings n (attrsOf (readLines v ls) n) → ¬ SmallSettings v n (textOf (readLines v ls) n) (attrsOf (readLines v ls) n) →
      ¬ (n ∈ [c!"sshkey", c!"sshpw"] ∧ ∀ d ∈ dataOf (readLines v ls) n, SshPlain n d) → ¬ (n = c!"snapshot" ∧ ∀ d ∈ dataOf (readLines v ls) n, SnapPlain d) →
      ¬ (n = c!"nvdimm" ∧ ∀ d ∈ dataOf (readLines v ls) n, NvPlain d) → ¬ (textOf (readLines v ls) n = [] ∧ c.str c.new.inst = []) →
      (ListCommand v n ∧ n ∈ lossless.map (·.1) ∧ ∀ d ∈ dataOf (readLines v ls) n, WritesAll v n d ∧ OneLine v n d) ∨
      (OneLineOf v ls n ∧ KeepsAll v n (attrsOf (readLines v ls) n) ∧ OneCommand (textOf (readLines v ls) n)) ∨ StableText v n (textOf (readLines v ls) n))
    (hR : ∀ n, textOf (readLines v ls) n ≠ [] → ∀ a ∈ rivals n, textOf (readLines v ls) a = []) (k : Nat) :
    let r := runCommands Handler.dispatch k (lineItems (readLines v ls).str) (newHandler v)
    r.2 = none ∧ r.1.str = (readLines v ls).str := by
  refine C84_file hv hl ls (fun n c hc hp hu hf hw hr hs hk hsn he => ?_) hR k
  by_cases h1 : n = c!"nvdimm" ∧ ∀ d ∈ dataOf (readLines v ls) n, NvPlain d
  · obtain ⟨rfl, h1⟩ := h1
    refine .inr (.inr (C85_restores hv (readLines_session v ls) (fun ho => he ⟨?_, ?_⟩) h1).1)
    · unfold textOf; rw [ho]
    · rcases nvdimm_class _ (supported_mem hv) with e | e
      · cases e.symm.trans hc
      · obtain rfl := Option.some.inj (hc.symm.trans e); rfl
  · exact hst n c hc hp hu hf hw hr hs hk hsn h1 he

/-! ### The hypotheses can be met -/

def nvFile : List (Nat × List Str × Str) :=
  [(1, [c!"nvdimm", c!"reconfigure", c!"--namespace=namespace0.0", c!"--mode", c!"sector", c!"--sectorsize", c!"512"], []), (2, [c!"nvdimm", c!"use", c!"--namespace=namespace0.0"], []),
   (3, [c!"nvdimm", c!"--blockdevs", c!"pmem1s, pmem2s,,", c!"use"], []), (4, [c!"nvdimm", c!"reconfigure", c!"--namespace=n"], [])]

/-- Four lines; the fourth has no sector size and is refused. -/
theorem C85_case :
    let h := readLines Version.F34 nvFile
    textOf h c!"nvdimm" = c!"# NVDIMM devices setup\nnvdimm reconfigure --namespace=namespace0.0 --mode=sector --sectorsize=512\nnvdimm use --namespace=namespace0.0\nnvdimm use --blockdevs=pmem1s,pmem2s\n\n" ∧
    (objectOf h c!"nvdimm").isSome ∧
    (dataOf h c!"nvdimm").map (fun d => (d.getD c!"action", d.getD c!"namespace", d.getD c!"blockdevs", d.getD c!"mode", d.getD c!"sectorsize")) =
      [(.str c!"reconfigure", .str c!"namespace0.0", .list [], .str c!"sector", .int 512), (.str c!"use", .str c!"namespace0.0", .list [], .str c!"sector", .none),
       (.str c!"use", .str [], .list [c!"pmem1s", c!"pmem2s"], .str c!"sector", .none)] ∧
    PlainValue c!"namespace0.0" ∧ ∀ x ∈ [c!"pmem1s", c!"pmem2s"], PlainElem x := by decide +kernel

/-- What is not restored: a sector size next to `use` is not written (/repo/pykickstart/commands/nvdimm.py:54-69), and a namespace with a blank or a comment sign is written without quotes. -/
theorem C85_lost :
    textOf (readLines Version.F34 [(1, [c!"nvdimm", c!"use", c!"--namespace=n", c!"--sectorsize=512"], [])]) c!"nvdimm" = c!"# NVDIMM devices setup\nnvdimm use --namespace=n\n\n" ∧
    (dataOf (readLines Version.F34 [(1, [c!"nvdimm", c!"use", c!"--namespace=n", c!"--sectorsize=512"], [])]) c!"nvdimm").map (fun d => d.getD c!"sectorsize") = [.int 512] ∧
    ∀ w ∈ [c!"a b", c!"a#b", c!"a'b"], ¬ StableText Version.F34 c!"nvdimm" (textOf (readLines Version.F34 [(1, [c!"nvdimm", c!"use", c!"--namespace=" ++ w], [])]) c!"nvdimm") := by decide +kernel

end Ks
