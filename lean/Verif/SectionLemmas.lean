import Verif.ParserLemmas
/-!
# Lemmas about script sections
-/
namespace Ks

/-! ## Blank bodies -/

theorem strip_eq_nil {s : Str} : strip s = [] ↔ ∀ c ∈ s, isSpace c = true := by
  constructor
  · intro h c hc
    obtain ⟨a, b, e, ha, hb⟩ := strip_decomp s
    rw [h] at e
    rw [e] at hc
    simp only [List.append_nil, List.mem_append] at hc
    rcases hc with hc | hc
    · exact List.all_eq_true.1 ha c hc
    · exact List.all_eq_true.1 hb c hc
  · intro h
    exact strip_all_space (List.all_eq_true.2 h)

theorem mem_joinWith_blank {l : List Str} : (∀ c ∈ joinWith c!" " l, isSpace c = true) ↔ ∀ x ∈ l, ∀ c ∈ x, isSpace c = true := by
  induction l with
  | nil => simp [joinWith]
  | cons x t ih =>
    cases t with
    | nil => simp [joinWith]
    | cons y t =>
      rw [joinWith]
      have hsp : isSpace ' ' = true := by decide
      simp only [List.mem_append, List.mem_cons, List.not_mem_nil, or_false, or_imp, forall_and, forall_eq, hsp, and_true] at ih ⊢
      rw [ih]

/-- A body with nothing but white space. -/
def BlankBody (body : List Str) : Prop := ∀ l ∈ body, ∀ c ∈ l, isSpace c = true

instance (body : List Str) : Decidable (BlankBody body) := by unfold BlankBody; infer_instance

theorem finalize_blank {t : ScriptType} {b : ScriptBuf} (h : BlankBody b.body) : b.finalize t = (none, b) := by
  rw [ScriptBuf.finalize, if_pos (strip_eq_nil.2 (mem_joinWith_blank.2 h))]

theorem finalize_script {t : ScriptType} {b : ScriptBuf} (h : ¬ BlankBody b.body) :
    b.finalize t = (some
      { script := b.body.flatten, interp := b.interp, inChroot := b.chroot, lineno := b.lineno,
        logfile := b.log, errorOnFail := b.errorOnFail, type := t }, .fresh t) := by
  rw [ScriptBuf.finalize, if_neg (fun e => h (mem_joinWith_blank.1 (strip_eq_nil.1 e)))]

/-! ## Script headers -/

/-- An option of a script header. -/
inductive ScriptOpt
  | interpreter (v : Str)
  | log (v : Str)
  | logfile (v : Str)
  | erroronfail
  | nochroot
  deriving DecidableEq

/-- The option as written. -/
def ScriptOpt.text : ScriptOpt → Str
  | .interpreter v => c!"--interpreter=" ++ v
  | .log v => c!"--log=" ++ v
  | .logfile v => c!"--logfile=" ++ v
  | .erroronfail => c!"--erroronfail"
  | .nochroot => c!"--nochroot"

def ScriptOpt.interp? : ScriptOpt → Option Str
  | .interpreter v => some v
  | _ => none

def ScriptOpt.log? : ScriptOpt → Option Str
  | .log v => some v
  | .logfile v => some v
  | _ => none

def ScriptOpt.tok : ScriptOpt → Tok
  | .interpreter v => ⟨c!"--interpreter", some v⟩
  | .log v => ⟨c!"--log", some v⟩
  | .logfile v => ⟨c!"--logfile", some v⟩
  | .erroronfail => ⟨c!"--erroronfail", none⟩
  | .nochroot => ⟨c!"--nochroot", none⟩

theorem ScriptOpt.tok_text (o : ScriptOpt) : o.tok.text = o.text := by
  cases o <;> simp [ScriptOpt.tok, Tok.text, ScriptOpt.text, valText]

theorem scriptParser_built (t : ScriptType) : (scriptParser t).Built := by
  have h : (OptParser.empty.addAll
    [ flagArg [c!"--erroronfail"] (some c!"errorOnFail"),
      { names := [c!"--interpreter"], dest := some c!"interpreter", default := some (.str c!"/bin/sh") },
      { names := [c!"--log", c!"--logfile"], dest := some c!"log" } ]).Built := by
    unfold OptParser.addAll
    simp only [List.foldl_cons, List.foldl_nil]
    repeat (refine OptParser.Built.add ?_ (by decide))
    exact .empty
  unfold scriptParser
  simp only
  split
  · exact .add h (by decide)
  · exact h

/-- The key and value an option stores. -/
def ScriptOpt.kv : ScriptOpt → Str × Val
  | .interpreter v => (c!"interpreter", .str v)
  | .log v => (c!"log", .str v)
  | .logfile v => (c!"log", .str v)
  | .erroronfail => (c!"errorOnFail", .bool true)
  | .nochroot => (c!"nochroot", .bool true)

theorem scriptParser_opt {t : ScriptType} {o : ScriptOpt} (h : o = .nochroot → t = .post) (l : Option Int) :
    ∃ a, (o.tok.name, a) ∈ (scriptParser t).strings ∧
      matchOptional a.nargs (o.tok.val.toList.map fun v => (v, Cls.A)) = some o.tok.val.toList.length ∧
      ∀ ns, takeAction l a o.tok.val.toList ns = .ok (ns.set o.kv.1 o.kv.2) := by
  by_cases ht : t = .post
  · subst ht
    cases o
    · exact ⟨_, .tail _ (.head _), rfl, fun _ => rfl⟩
    · exact ⟨_, .tail _ (.tail _ (.head _)), rfl, fun _ => rfl⟩
    · exact ⟨_, .tail _ (.tail _ (.tail _ (.head _))), rfl, fun _ => rfl⟩
    · exact ⟨_, .head _, rfl, fun _ => rfl⟩
    · exact ⟨_, .tail _ (.tail _ (.tail _ (.tail _ (.head _)))), rfl, fun _ => rfl⟩
  · unfold scriptParser
    simp only [ht, if_false]
    cases o
    · exact ⟨_, .tail _ (.head _), rfl, fun _ => rfl⟩
    · exact ⟨_, .tail _ (.tail _ (.head _)), rfl, fun _ => rfl⟩
    · exact ⟨_, .tail _ (.tail _ (.tail _ (.head _))), rfl, fun _ => rfl⟩
    · exact ⟨_, .head _, rfl, fun _ => rfl⟩
    · exact absurd (h rfl) ht

theorem scriptParser_run {t : ScriptType} {os : List ScriptOpt} (h : .nochroot ∈ os → t = .post) (l : Option Int) (ns : Ns) :
    runToks (scriptParser t) l (os.map ScriptOpt.tok) ns = .ok (os.foldl (fun ns o => ns.set o.kv.1 o.kv.2) ns) := by
  induction os generalizing ns with
  | nil => rfl
  | cons o os ih =>
    obtain ⟨a, ha, _, hact⟩ := scriptParser_opt (t := t) (o := o) (fun e => h (by simp [e])) l
    rw [List.map_cons, runToks, (scriptParser_built t).wf.lookup ha]
    simp only [hact]
    exact ih (fun hm => h (by simp [hm])) _

theorem scriptParser_parse {t : ScriptType} {os : List ScriptOpt} (h : .nochroot ∈ os → t = .post) (l : Option Int) :
    (scriptParser t).parseArgs l (os.map ScriptOpt.text) =
      .ok (os.foldl (fun ns o => ns.set o.kv.1 o.kv.2) (scriptParser t).defaults) := by
  have hfit : ∀ x ∈ os.map ScriptOpt.tok, x.Fits (scriptParser t) := by
    intro x hx
    obtain ⟨o, ho, rfl⟩ := List.mem_map.1 hx
    obtain ⟨a, ha, hm, _⟩ := scriptParser_opt (t := t) (o := o) (fun e => h (e ▸ ho)) l
    exact ⟨a, ha, hm⟩
  have hpos : (scriptParser t).initSt.positionals = [] := by cases t <;> rfl
  have hk := parseKnown_opts (scriptParser_built t).wf l hpos (pos := []) (by simp) hfit
  rw [List.nil_append, List.map_map, scriptParser_run h] at hk
  have hfin : ∀ seen ns, finish l seen (scriptParser t).actions ns false = .ok (ns, false) := by
    intro seen ns
    apply finish_id
    · intro a ha hr
      have : ∀ a ∈ (scriptParser t).actions, a.required = false := by
        have hb : (scriptParser t).actions.all (fun a => !a.required) = true := by cases t <;> decide +kernel
        intro a ha
        simpa using List.all_eq_true.1 hb a ha
      rw [this a ha] at hr; simp at hr
    · intro a ha s hs
      have : ∀ a ∈ (scriptParser t).actions, ∀ s, a.type s = .ok (.str s) := by
        cases t
        case post =>
          exact List.forall_mem_cons.2 ⟨fun _ => rfl, List.forall_mem_cons.2 ⟨fun _ => rfl, List.forall_mem_cons.2
            ⟨fun _ => rfl, List.forall_mem_cons.2 ⟨fun _ => rfl, by simp⟩⟩⟩⟩
        all_goals
          exact List.forall_mem_cons.2 ⟨fun _ => rfl, List.forall_mem_cons.2 ⟨fun _ => rfl, List.forall_mem_cons.2
            ⟨fun _ => rfl, by simp⟩⟩⟩
      exact this a ha s
  simp only [hfin, Bool.false_eq_true, if_false] at hk
  have e : os.map ScriptOpt.text = os.map (Tok.text ∘ ScriptOpt.tok) := by
    apply List.map_congr_left
    intro o _
    exact (o.tok_text).symm
  unfold OptParser.parseArgs
  rw [e, hk]
  simp

theorem foldl_kv_get (os : List ScriptOpt) (ns : Ns) (k : Str) :
    (os.foldl (fun ns o => ns.set o.kv.1 o.kv.2) ns).get k =
      match (os.filterMap fun o => if o.kv.1 = k then some o.kv.2 else none).getLast? with
      | some v => some v
      | none => ns.get k := by
  induction os generalizing ns with
  | nil => rfl
  | cons o os ih =>
    rw [List.foldl_cons, ih, List.filterMap_cons]
    by_cases hk : o.kv.1 = k
    · rw [if_pos hk]
      simp only
      cases hl : (os.filterMap fun o => if o.kv.1 = k then some o.kv.2 else none).getLast? with
      | some v => rw [List.getLast?_cons, hl]; rfl
      | none => rw [List.getLast?_cons, hl, Ns.get_set, if_pos hk]; rfl
    · rw [if_neg hk]
      simp only
      rw [Ns.get_set_ne _ _ hk]

theorem kv_interp (os : List ScriptOpt) :
    (os.filterMap fun o => if o.kv.1 = c!"interpreter" then some o.kv.2 else none) = (os.filterMap ScriptOpt.interp?).map .str := by
  rw [List.map_filterMap]
  congr 1; funext o; cases o <;> rfl

theorem kv_log (os : List ScriptOpt) :
    (os.filterMap fun o => if o.kv.1 = c!"log" then some o.kv.2 else none) = (os.filterMap ScriptOpt.log?).map .str := by
  rw [List.map_filterMap]
  congr 1; funext o; cases o <;> rfl

theorem kv_flag (os : List ScriptOpt) (o' : ScriptOpt) (k : Str) (h : ∀ o : ScriptOpt, o.kv.1 = k ↔ o = o') (hv : o'.kv.2 = .bool true) :
    (os.filterMap fun o => if o.kv.1 = k then some o.kv.2 else none).getLast? = if o' ∈ os then some (.bool true) else none := by
  induction os with
  | nil => rfl
  | cons o os ih =>
    rw [List.filterMap_cons]
    by_cases e : o = o'
    · rw [if_pos ((h o).2 e), e]
      simp only [List.getLast?_cons, ih, hv]
      by_cases hm : o' ∈ os <;> simp [hm]
    · rw [if_neg (fun hk => e ((h o).1 hk))]
      simp only [ih, List.mem_cons, Ne.symm e, false_or]

/-- The script a section's header and body describe: a value option given several times counts with
its last value, `--log` and `--logfile` are the same option. -/
def scriptOf (t : ScriptType) (opts : List ScriptOpt) (lineno : Nat) (body : List Str) : Script :=
  { script := body.flatten
    interp := ((opts.filterMap ScriptOpt.interp?).getLast?).getD c!"/bin/sh"
    inChroot := decide (t = .post ∧ ScriptOpt.nochroot ∉ opts)
    lineno := some lineno
    logfile := (opts.filterMap ScriptOpt.log?).getLast?
    errorOnFail := decide (ScriptOpt.erroronfail ∈ opts)
    type := t }

theorem scriptHeader {t : ScriptType} {os : List ScriptOpt} (h : .nochroot ∈ os → t = .post) (n : Nat) (b : ScriptBuf) :
    b.header t n (os.map ScriptOpt.text) = .ok
      { b with
        interp := ((os.filterMap ScriptOpt.interp?).getLast?).getD c!"/bin/sh"
        lineno := some n
        log := (os.filterMap ScriptOpt.log?).getLast?
        errorOnFail := decide (ScriptOpt.erroronfail ∈ os)
        chroot := if t = .post then decide (ScriptOpt.nochroot ∉ os) else b.chroot } := by
  unfold ScriptBuf.header
  rw [scriptParser_parse h]
  have dI : (scriptParser t).defaults.get c!"interpreter" = some (.str c!"/bin/sh") := by cases t <;> decide +kernel
  have dL : (scriptParser t).defaults.get c!"log" = some .none := by cases t <;> decide +kernel
  have dE : (scriptParser t).defaults.get c!"errorOnFail" = some (.bool false) := by cases t <;> decide +kernel
  have gI := foldl_kv_get os (scriptParser t).defaults c!"interpreter"
  have gL := foldl_kv_get os (scriptParser t).defaults c!"log"
  have gE := foldl_kv_get os (scriptParser t).defaults c!"errorOnFail"
  have gN := foldl_kv_get os (scriptParser t).defaults c!"nochroot"
  rw [kv_interp, dI, List.getLast?_map] at gI
  rw [kv_log, dL, List.getLast?_map] at gL
  rw [kv_flag os .erroronfail _ (fun o => by cases o <;> simp [ScriptOpt.kv]) rfl, dE] at gE
  rw [kv_flag os .nochroot _ (fun o => by cases o <;> simp [ScriptOpt.kv]) rfl] at gN
  generalize os.foldl (fun ns o => ns.set o.kv.1 o.kv.2) (scriptParser t).defaults = ns at *
  have eI : (ns.str? c!"interpreter").getD [] = ((os.filterMap ScriptOpt.interp?).getLast?).getD c!"/bin/sh" := by
    unfold Ns.str? Ns.getD
    rw [gI]
    cases (os.filterMap ScriptOpt.interp?).getLast? <;> rfl
  have eL : ns.str? c!"log" = (os.filterMap ScriptOpt.log?).getLast? := by
    unfold Ns.str? Ns.getD
    rw [gL]
    cases (os.filterMap ScriptOpt.log?).getLast? <;> rfl
  have eE : ns.flag c!"errorOnFail" = decide (ScriptOpt.erroronfail ∈ os) := by
    unfold Ns.flag Ns.getD
    rw [gE]
    by_cases hm : ScriptOpt.erroronfail ∈ os <;> simp [hm]
  have eN : (if t = .post then ! ns.flag c!"nochroot" else b.chroot) =
      (if t = .post then decide (ScriptOpt.nochroot ∉ os) else b.chroot) := by
    by_cases ht : t = .post
    · subst ht
      have dN : (scriptParser .post).defaults.get c!"nochroot" = some (.bool false) := by decide +kernel
      rw [dN] at gN
      rw [if_pos rfl, if_pos rfl]
      unfold Ns.flag Ns.getD
      rw [gN]
      by_cases hm : ScriptOpt.nochroot ∈ os <;> simp [hm]
    · rw [if_neg ht, if_neg ht]
  simp only [eI, eL, eE, eN]

end Ks
