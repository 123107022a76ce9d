import Verif.Commands.Safe
import Verif.Props.HandlerProps
/-!
# Command classes as a whole

`Command.Ok c I E`: the attributes of a new object satisfy `I`, calls of `parse` keep that, change
nothing but what they may (`ObjFrame`) and raise only exceptions of `E`.
-/
namespace Ks

/-- See the top of the file.  `multipath` is the only command that changes earlier data objects. -/
structure Command.Ok (c : Command) (I : Ns → Prop) (E : List Str → Nat → Exc → Prop) : Prop where
  init : I c.init.attrs
  frame : c.name ≠ c!"FC6_MultiPath" → ∀ h args i, HasStorage h → I i.attrs.attrs → ObjFrame i (c.parse h args i).1
  keep : ∀ h args i, HasStorage h → I i.attrs.attrs → I (c.parse h args i).1.attrs.attrs
  err : ∀ h args i, HasStorage h → I i.attrs.attrs → ∀ e, (c.parse h args i).2 = .error e → E args i.lineno e
  add : ∀ d i, (c.addData d i).attrs.attrs = i.attrs.attrs
  seen : ∀ d i, (c.addData d i).seen = i.seen
  mark : ∀ h args i, HasStorage h → I i.attrs.attrs → (c.parse h args i).1.seen = i.seen

theorem Command.Ok.mono {c : Command} {I : Ns → Prop} {E E' : List Str → Nat → Exc → Prop} (h : c.Ok I E)
    (hE : ∀ args n e, E args n e → E' args n e) : c.Ok I E' :=
  ⟨h.init, h.frame, h.keep, fun s args i hs hi e he => hE _ _ _ (h.err s args i hs hi e he), h.add, h.seen, h.mark⟩

/-- No condition on the attributes. -/
def anyNs : Ns → Prop := fun _ => True

variable {E : List Str → Nat → Exc → Prop} {name : Str} {prio : Option Int} {init : Ns} {str : Ns → Str} {dc : DataCls}

theorem plain_ok {parse : List Str → M Unit} (hg : ∀ args, M.Good (E args) (parse args) fun _ => True) :
    (plainCmd name prio init parse str).Ok anyNs E := by
  refine ⟨trivial, fun _ h args i hs _ => ?_, fun _ _ _ _ _ => trivial, fun h args i hs _ e he => ?_, fun _ _ => rfl, fun _ _ => rfl, fun h args i hs _ => ?_⟩
  all_goals have hg := (hg args).run h i hs
  · show ObjFrame i (match parse args h i with | (i, .error e) => (i, .error e) | (i, .ok _) => (i, .ok none) : Inst CState × Except Exc (Option Ns)).1
    split <;> (rename_i hr; rw [hr] at hg; exact hg.1)
  · have he : (match parse args h i with | (i, .error e) => (i, .error e) | (i, .ok _) => (i, .ok none) : Inst CState × Except Exc (Option Ns)).2 = .error e := he
    split at he <;> (rename_i hr; rw [hr] at hg)
    · cases he; exact hg.2.2 _ rfl
    · cases he
  · show (match parse args h i with | (i, .error e) => (i, .error e) | (i, .ok _) => (i, .ok none) : Inst CState × Except Exc (Option Ns)).1.seen = i.seen
    split <;> (rename_i hr; rw [hr] at hg; exact hg.1.seen)

theorem list_ok {parse : List Str → M Ns} {str : List Str → Str} (hg : ∀ args, M.Good (E args) (parse args) fun _ => True) :
    (listCmd name prio init dc parse str).Ok anyNs E := by
  refine ⟨trivial, fun _ h args i hs _ => ?_, fun _ _ _ _ _ => trivial, fun h args i hs _ e he => ?_, fun _ _ => rfl, fun _ _ => rfl, fun h args i hs _ => ?_⟩
  all_goals have hg := (hg args).run h i hs
  · show ObjFrame i (match parse args h i with | (i, .error e) => (i, .error e) | (i, .ok d) => (i, .ok (some d)) : Inst CState × Except Exc (Option Ns)).1
    split <;> (rename_i hr; rw [hr] at hg; exact hg.1)
  · have he : (match parse args h i with | (i, .error e) => (i, .error e) | (i, .ok d) => (i, .ok (some d)) : Inst CState × Except Exc (Option Ns)).2 = .error e := he
    split at he <;> (rename_i hr; rw [hr] at hg)
    · cases he; exact hg.2.2 _ rfl
    · cases he
  · show (match parse args h i with | (i, .error e) => (i, .error e) | (i, .ok d) => (i, .ok (some d)) : Inst CState × Except Exc (Option Ns)).1.seen = i.seen
    split <;> (rename_i hr; rw [hr] at hg; exact hg.1.seen)

theorem deprecated_ok : (deprecatedCmd name init).Ok anyNs fun _ => ParseErr :=
  plain_ok fun _ => good_bind good_currentCmd fun _ _ => good_warn _

theorem removed_ok : (removedCmd name init).Ok anyNs fun _ => ParseErr :=
  plain_ok fun _ => good_bind good_currentCmd fun _ _ => good_err

theorem Ns.get_without (ns : Ns) (ks : List Str) (k : Str) (h : k ∈ ks) : (ns.without ks).get k = none := by
  unfold Ns.without Ns.get
  induction ns with
  | nil => rfl
  | cons a t ih =>
    rw [List.filter_cons]
    split
    · rename_i ha
      rw [List.lookup_cons]
      split
      · rename_i e
        have : k = a.1 := by simpa using e
        subst this
        simp [h] at ha
      · exact ih
    · exact ih

/-- Which exceptions `m` raises. -/
def M.Errs {α : Type} (E : Nat → Exc → Prop) (m : M α) : Prop := ∀ h i, HasStorage h → ∀ e, (m h i).2 = .error e → E i.lineno e

theorem errs_good {α : Type} {E : Nat → Exc → Prop} {m : M α} {Q : α → Prop} (h : M.Good E m Q) : M.Errs E m :=
  fun s i hs => (h.run s i hs).2.2

theorem errs_bind {α β : Type} {E : Nat → Exc → Prop} {m : M α} {f : α → M β} {P : α → Prop} (hm : M.Good E m P)
    (hf : ∀ a, P a → M.Errs E (f a)) : M.Errs E (m >>= f) := by
  intro h i hs e he
  obtain ⟨h1, h2, h3⟩ := hm.run h i hs
  simp only [bind] at he
  match hr : m h i with
  | (j, .error e') =>
    rw [hr] at h3 he
    cases he; exact h3 _ rfl
  | (j, .ok a) =>
    rw [hr] at h1 h2 he
    have := hf a (h2 a rfl) h j hs e he
    rwa [show j.lineno = i.lineno from h1.lineno] at this

/-- `m` leaves the mark alone. -/
def M.Marks {α : Type} (m : M α) : Prop := ∀ h i, HasStorage h → (m h i).1.seen = i.seen

theorem marks_good {α : Type} {E : Nat → Exc → Prop} {m : M α} {Q : α → Prop} (h : M.Good E m Q) : M.Marks m :=
  fun s i hs => (h.run s i hs).1.seen

theorem marks_bind {α β : Type} {E : Nat → Exc → Prop} {m : M α} {f : α → M β} {P : α → Prop} (hm : M.Good E m P)
    (hf : ∀ a, M.Marks (f a)) : M.Marks (m >>= f) := by
  intro h i hs
  obtain ⟨h1, h2, h3⟩ := hm.run h i hs
  simp only [bind]
  match hr : m h i with
  | (j, .error e') => rw [hr] at h1; exact h1.seen
  | (j, .ok a) => rw [hr] at h1; exact (hf a h j hs).trans h1.seen

/-- Any exception. -/
def anyErr : Nat → Exc → Prop := fun _ _ => True

instance : ErrSet anyErr := ⟨fun _ _ => trivial⟩

namespace Cmd

/-! ## The commands that need a closer look -/

theorem shlex_err (x : Except ShlexErr (List Str)) (n : Nat) (e : Exc) (h : x.mapError Exc.shlex = .error e) :
    ParseErrOr (fun e => ∃ s, e = .shlex s) n e := by
  cases x with
  | ok a => cases h
  | error s => cases h; exact .inr ⟨s, rfl⟩

/-- `realm` splits the line itself; a quotation that does not end is a `ValueError`. -/
theorem F19_Realm.parse_good (args : List Str) :
    M.Good (ParseErrOr fun e => ∃ s, e = .shlex s) (F19_Realm.parse args) fun _ => True := by
  unfold F19_Realm.parse F19_Realm.parseArguments F19_Realm.parseJoin
  repeat' (first | (with_reducible apply good_liftE; exact shlex_err _) | good_step)

theorem F19_Realm.ok : F19_Realm.cls.Ok anyNs fun _ => ParseErrOr fun e => ∃ s, e = .shlex s :=
  plain_ok fun args => F19_Realm.parse_good args

theorem method_ok : (plainCmd name prio init (fun _ => M.throw .type) str).Ok anyNs fun _ => ParseErrOr (· = .type) :=
  plain_ok fun _ => good_throw fun _ => .inr rfl

/-- What `vnc` keeps: the attribute `_connect`, if there is one, is a string or `None`. -/
def vncInv (ns : Ns) : Prop := (ns.getD c!"_connect").StrOrNone

theorem FC6_Vnc.parse_frame (k : Info) (args : List Str) : M.Good anyErr (FC6_Vnc.parse k args) fun _ => True := by
  unfold FC6_Vnc.parse FC3_Vnc.parse
  repeat' (first | ((with_reducible apply good_liftE); exact fun _ _ _ => trivial) | good_step)

theorem FC6_Vnc.parse_spec (k : Info) (hk : k.op.StrDest c!"_connect") (args : List Str) (h : Str → Option Bool) (i : Inst CState)
    (hi : vncInv i.attrs.attrs) :
    vncInv (FC6_Vnc.parse k args h i).1.attrs.attrs ∧ ∀ e, (FC6_Vnc.parse k args h i).2 = .error e → ParseErr i.lineno e := by
  have hset : ∀ {ns : Ns} (key : Str) (v : Val), key ≠ c!"_connect" → vncInv ns → vncInv (ns.set key v) := by
    intro ns key v hne hns
    unfold vncInv
    rw [Ns.getD_set, if_neg hne]; exact hns
  unfold FC6_Vnc.parse FC3_Vnc.parse
  simp only [bind, M.set, M.parseArgs]
  cases hr : k.op.parseArgs (some (i.lineno : Int)) args with
  | error e =>
    simp only
    refine ⟨hset _ _ (by decide) hi, fun e' he => ?_⟩
    cases he
    obtain ⟨tag, rfl⟩ := C10_parse_args_error k.op _ args (k.op.typesOk _) e hr
    exact ⟨tag, rfl⟩
  | ok ns =>
    simp only [M.setToSelf, M.self, M.when]
    have hc : vncInv (setToObj ns (i.attrs.attrs.set c!"enabled" (.bool true))) := by
      have h1 := hk.getArgs ⟨_, hr⟩
      have h2 := hset c!"enabled" (.bool true) (by decide) hi
      unfold vncInv Ns.getD at h2 ⊢
      rw [C16_set_to_obj _ _ (C16_namespace_keys _ _ _ _ hr)]
      unfold Ns.getD at h1
      split
      · exact h2
      · rename_i v _ hv
        rw [hv] at h1; exact h1
      · exact h2
    generalize hA : setToObj ns (i.attrs.attrs.set c!"enabled" (.bool true)) = A at hc ⊢
    have hself : ∀ j : Inst CState, j.attrs.attrs = A → (selfOf j).getD c!"_connect" = A.getD c!"_connect" := by
      intro j hj
      unfold selfOf
      rw [hj]; rfl
    rw [hself _ rfl]
    have hdel : ∀ ns : Ns, vncInv (ns.without [c!"_connect"]) := by
      intro ns
      refine Or.inl ?_
      unfold Ns.getD
      rw [Ns.get_without _ _ _ (by simp)]; rfl
    cases ht : (A.getD c!"_connect").truthy with
    | false => exact ⟨hc, fun e he => by cases he⟩
    | true =>
      rcases hc with hc | hc
      · rw [hc] at ht; cases ht
      · have hs := Val.StrOrNone.split_ok hc ':'
        obtain ⟨x1, hx1⟩ := hs.1.index hs.2
        simp only [M.lift, hx1]
        cases hl : decide (((A.getD c!"_connect").split ':').len > 1) with
        | false => exact ⟨hdel _, fun e he => by cases he⟩
        | true =>
          obtain ⟨x2, hx2⟩ := hs.1.index (of_decide_eq_true hl)
          simp only [hx2]
          exact ⟨hdel _, fun e he => by cases he⟩

theorem vnc_ok {name : Str} {init : Ns} {k : Info} {str : Ns → Str} (hk : k.op.StrDest c!"_connect") (hi : vncInv init) :
    (plainCmd name prio init (FC6_Vnc.parse k) str).Ok vncInv fun _ => ParseErr := by
  have hp : ∀ h args i, ((plainCmd name prio init (FC6_Vnc.parse k) str).parse h args i).1 = (FC6_Vnc.parse k args h i).1 := by
    intro h args i
    show (match FC6_Vnc.parse k args h i with | (i, .error e) => (i, .error e) | (i, .ok _) => (i, .ok none) : Inst CState × Except Exc (Option Ns)).1 = _
    split <;> (rename_i hr; rw [hr])
  refine ⟨hi, fun _ h args i hs _ => ?_, fun h args i _ hI => ?_, fun h args i _ hI e he => ?_, fun _ _ => rfl, fun _ _ => rfl,
    fun h args i hs _ => by rw [hp]; exact ((FC6_Vnc.parse_frame k args).run h i hs).1.seen⟩
  · rw [hp]; exact ((FC6_Vnc.parse_frame k args).run h i hs).1
  · rw [hp]; exact (FC6_Vnc.parse_spec k hk args h i hI).1
  · have he : (match FC6_Vnc.parse k args h i with | (i, .error e) => (i, .error e) | (i, .ok _) => (i, .ok none) : Inst CState × Except Exc (Option Ns)).2 = .error e := he
    refine (FC6_Vnc.parse_spec k hk args h i hI).2 e ?_
    split at he <;> (rename_i hr; rw [hr])
    · cases he; rfl
    · cases he

theorem FC6_MultiPath.findParent_good (device mpdev : Val) (l : List Ns) (x : Nat) (parent : Option Nat) :
    M.Good (ParseErrOr (· = .attribute)) (FC6_MultiPath.findParent device mpdev l x parent) fun _ => True := by
  induction l generalizing x parent with
  | nil => exact good_pureT
  | cons a t ih =>
    unfold FC6_MultiPath.findParent
    cases ha : a.get c!"paths" with
    | none => exact good_bind (P := fun _ => True) (good_throw fun _ => .inr rfl) fun _ _ => good_bind good_failIfT fun _ _ => ih _ _
    | some p => exact good_bind good_pureT fun _ _ => good_bind good_failIfT fun _ _ => ih _ _

/-- `multipath` fails with an `AttributeError` when it meets a path object in its data list. -/
theorem FC6_MultiPath.parse_errs (k : Info) (hk : k.op.StrDest c!"name") (args : List Str) :
    M.Errs (ParseErrOr (· = .attribute)) (FC6_MultiPath.parse k args) := by
  unfold FC6_MultiPath.parse
  refine errs_bind good_parseArgs fun ns hns => errs_bind good_lineno fun ln _ => errs_bind (good_liftT ?_) fun mpdev _ =>
    errs_bind good_dataList fun l _ => errs_bind (FC6_MultiPath.findParent_good _ _ _ _ _) fun parent _ => ?_
  · have h : (((setToObj ns FC6_MpPathData.init).set c!"lineno" (.int ln)).getD c!"name").isStr = true := by
      rw [Ns.getD_set, if_neg (by decide)]
      obtain ⟨l, hl⟩ := hns
      have hs := hk.getArgs ⟨l, hl⟩
      unfold Ns.getD at hs ⊢
      rw [C16_set_to_obj ns _ (C16_namespace_keys _ _ _ _ hl)]
      cases hg : ns.get c!"name" with
      | none => rfl
      | some v =>
        rw [hg] at hs
        rcases hs with hs | hs
        · have hs : v = .none := hs
          subst hs; rfl
        · cases v with
          | str s => rfl
          | none => rfl
          | _ => cases hs
    exact (Val.StrOrNone.split_ok h _).1.last (Val.StrOrNone.split_ok h _).2
  · intro h i _ e he
    split at he <;> cases he

theorem FC6_MultiPath.parse_marks (k : Info) (args : List Str) : M.Marks (FC6_MultiPath.parse k args) := by
  unfold FC6_MultiPath.parse
  refine marks_bind (E := anyErr) good_parseArgs fun ns => marks_bind (E := anyErr) good_lineno fun ln =>
    marks_bind (E := anyErr) (P := fun _ => True) (good_liftE fun _ _ _ => trivial) fun mpdev =>
    marks_bind (E := anyErr) good_dataList fun l => marks_bind (FC6_MultiPath.findParent_good _ _ _ _ _) fun parent => ?_
  split
  · exact fun _ _ _ => rfl
  · exact fun _ _ _ => rfl

theorem FC6_MultiPath.ok (dc : DataCls) : (FC6_MultiPath.cls dc).Ok anyNs fun _ => ParseErrOr (· = .attribute) := by
  refine ⟨trivial, fun hn => (hn rfl).elim, fun _ _ _ _ _ => trivial, fun h args i hs _ e he => ?_, fun _ _ => rfl, fun _ _ => rfl, fun h args i hs _ => ?_⟩
  on_goal 2 =>
    show (match FC6_MultiPath.parse (FC6_MultiPath.info dc) args h i with
      | (i, .error e) => (i, .error e) | (i, .ok d) => (i, .ok (some d)) : Inst CState × Except Exc (Option Ns)).1.seen = i.seen
    have := FC6_MultiPath.parse_marks (FC6_MultiPath.info dc) args h i hs
    split <;> (rename_i hr; rw [hr] at this; exact this)
  have he : (match FC6_MultiPath.parse (FC6_MultiPath.info dc) args h i with
    | (i, .error e) => (i, .error e) | (i, .ok d) => (i, .ok (some d)) : Inst CState × Except Exc (Option Ns)).2 = .error e := he
  refine FC6_MultiPath.parse_errs (FC6_MultiPath.info dc) ?_ args h i hs e ?_
  · show FC6_MultiPath.op.StrDest c!"name"
    decide +kernel
  · split at he <;> (rename_i hr; rw [hr])
    · cases he; rfl
    · cases he

/-- `int(s)` of the device of old `raid` commands. -/
theorem FC3_Raid.device_err (s : Str) (n : Nat) (e : Exc) (h : FC3_Raid.getDevice (.str s) = .error e) : ParseErrOr (· = .value) n e := by
  simp only [FC3_Raid.getDevice] at h
  split at h
  · cases h
  · cases h; exact .inr rfl

/-! ## What is allowed -/

/-- The exceptions the command `n` of version `v` raises, given its arguments and line number. -/
inductive Allowed (v : Nat) (n : Str) (args : List Str) (lineno : Nat) : Exc → Prop
  /-- `KickstartParseError` for this line -/
  | parse (tag : Str) : Allowed v n args lineno (.parse tag (some lineno))
  /-- `int()` of the device name -/
  | raid : n = c!"raid" → v < Version.F19 → Allowed v n args lineno .value
  /-- the proxy is given no arguments -/
  | method : n = c!"method" → v < Version.F34 → Allowed v n args lineno .type
  /-- its own `shlex.split` -/
  | realm (s : ShlexErr) : n = c!"realm" → Allowed v n args lineno (.shlex s)
  /-- a path object in the list of devices -/
  | multipath : n = c!"multipath" → v < Version.F24 → Allowed v n args lineno .attribute
  /-- the mount point is missing -/
  | mount : n = c!"mount" → c!"--" ∈ args → Allowed v n args lineno .index
  /-- no line number -/
  | nvdimm (tag : Str) : n = c!"nvdimm" → Allowed v n args lineno (.parse tag none)

theorem allow_parse {v : Nat} {n : Str} {c : Command} {I : Ns → Prop} (h : c.Ok I fun _ => ParseErr) : c.Ok I (Allowed v n) :=
  h.mono fun _ _ _ ⟨tag, ht⟩ => ht ▸ .parse tag

theorem allow_raid {v : Nat} (hv : v < Version.F19) {c : Command} {I : Ns → Prop} (h : c.Ok I fun _ => ParseErrOr (· = .value)) :
    c.Ok I (Allowed v c!"raid") :=
  h.mono fun _ _ _ h => h.elim (fun ⟨tag, ht⟩ => ht ▸ .parse tag) fun h => h ▸ .raid rfl hv

theorem allow_method {v : Nat} (hv : v < Version.F34) {c : Command} {I : Ns → Prop} (h : c.Ok I fun _ => ParseErrOr (· = .type)) :
    c.Ok I (Allowed v c!"method") :=
  h.mono fun _ _ _ h => h.elim (fun ⟨tag, ht⟩ => ht ▸ .parse tag) fun h => h ▸ .method rfl hv

theorem allow_realm {v : Nat} {c : Command} {I : Ns → Prop} (h : c.Ok I fun _ => ParseErrOr fun e => ∃ s, e = .shlex s) :
    c.Ok I (Allowed v c!"realm") :=
  h.mono fun _ _ _ h => h.elim (fun ⟨tag, ht⟩ => ht ▸ .parse tag) fun ⟨s, h⟩ => h ▸ .realm s rfl

theorem allow_multipath {v : Nat} (hv : v < Version.F24) {c : Command} {I : Ns → Prop} (h : c.Ok I fun _ => ParseErrOr (· = .attribute)) :
    c.Ok I (Allowed v c!"multipath") :=
  h.mono fun _ _ _ h => h.elim (fun ⟨tag, ht⟩ => ht ▸ .parse tag) fun h => h ▸ .multipath rfl hv

theorem allow_mount {v : Nat} {c : Command} {I : Ns → Prop}
    (h : c.Ok I fun args => ParseErrOr fun e => c!"--" ∈ args ∧ e = .index) : c.Ok I (Allowed v c!"mount") :=
  h.mono fun _ _ _ h => h.elim (fun ⟨tag, ht⟩ => ht ▸ .parse tag) fun ⟨h1, h⟩ => h ▸ .mount rfl h1

theorem allow_nvdimm {v : Nat} {c : Command} {I : Ns → Prop} (h : c.Ok I fun _ => ParseErr') : c.Ok I (Allowed v c!"nvdimm") :=
  h.mono fun _ _ _ ⟨tag, ln, ht, hl⟩ => by
    subst ht
    rcases hl with rfl | rfl
    · exact .parse tag
    · exact .nvdimm tag rfl

/-- What is known of the command map `m` of version `v`. -/
structure MapOk (v : Nat) (m : List (Str × Command)) : Prop where
  dict : IsDict m
  /-- classes are known by their names, and no two of them want the same attribute of the handler,
  except that `install` and `upgrade` do in `RHEL7` -/
  classes : ∃ (cs : List Command) (names attrs : List Str), cs.map (·.name) = names ∧ names.map attrName = attrs ∧ names.Nodup ∧
    (attrs.filter (· ≠ c!"upgrade")).Nodup ∧ ∀ x ∈ m, x.2 ∈ cs
  storage : ∀ a ∈ storageCmds, a ∈ m.map fun x => attrName x.2.name
  ok : ∀ x ∈ m, ∃ I, x.2.Ok I (Allowed v x.1)

/-- A number for a string, to compare strings fast. -/
def strCode (s : Str) : Nat := s.foldl (fun n c => n * 0x110000 + c.toNat) 1

/-- No number twice. -/
def nodupB : List Nat → Bool
  | [] => true
  | x :: t => t.all (fun y => !(Nat.beq x y)) && nodupB t

theorem nodup_codes {l : List Str} (h : nodupB (l.map strCode) = true) : l.Nodup := by
  refine nodup_of_map (f := strCode) ?_
  generalize l.map strCode = m at h
  induction m with
  | nil => exact .nil
  | cons x t ih =>
    rw [nodupB, Bool.and_eq_true] at h
    rw [List.nodup_cons]
    refine ⟨fun hx => ?_, ih h.2⟩
    have := List.all_eq_true.1 h.1 x hx
    simp at this

theorem forall_mem_cons' {α : Type} {p : α → Prop} {a : α} {l : List α} (h : p a) (ht : ∀ x ∈ l, p x) : ∀ x ∈ a :: l, p x :=
  List.forall_mem_cons.2 ⟨h, ht⟩

theorem mem_at {α : Type} {l : List α} (i : Nat) {a : α} (h : l[i]? = some a) : a ∈ l := List.mem_of_getElem? h

end Cmd
end Ks
