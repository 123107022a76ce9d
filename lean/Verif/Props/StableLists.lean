import Verif.Commands.Framed
import Verif.Props.NormalProps
import Verif.Props.StableProps
/-!
# C75 for commands with data lists
-/
namespace Ks

open Cmd

/-- The object is written on one line, after the comment of the command if it has one. -/
def OneLine (v : Nat) (n : Str) (d : Ns) : Prop :=
  (splitLines (objectText v n d)).length = if (objectText v n d).head? = some '#' then 2 else 1

instance (v : Nat) (n : Str) (d : Ns) : Decidable (OneLine v n d) := by unfold OneLine; infer_instance

/-- Lines with their numbers. -/
def atLines : Nat → List (Str × List Str) → List (Nat × List Str × Str)
  | _, [] => []
  | k, p :: t => (k + 1, p.2, p.1) :: atLines (k + 1) t

theorem atLines_words (k : Nat) (ps : List (Str × List Str)) : (atLines k ps).map (·.2.1) = ps.map (·.2) := by
  induction ps generalizing k with
  | nil => rfl
  | cons p t ih => simp only [atLines, List.map_cons, ih]

theorem runH_readAll (k : Nat) (ps : List (Str × List Str)) (h : Handler CState Ns) : runH k (ps.map fun p => .cmd p.1 p.2) h = readAll (atLines k ps) h := by
  induction ps generalizing k h with
  | nil => rfl
  | cons p t ih =>
    unfold runH
    rw [List.map_cons, runCommands, atLines, readAll]
    match hd : h.dispatch (k + 1) p.2 p.1 with
    | (g, none) => exact ih _ _
    | (g, some e) => rfl

theorem splitLines_one {s : Str} (h : (splitLines s).length = 1) : splitLines s = [s] := by
  match hs : splitLines s, h with
  | [l], _ =>
    have := splitLines_flatten s
    rw [hs] at this
    simpa using this

theorem headLine_facts {hd : Str} (h : headLine hd = true) : headingOk hd = true ∧ hd.head? = some '#' ∧ hd.getLast? = some '\n' ∧ splitLines hd = [hd] ∧ hd.take 10 ≠ c!"#platform=" := by
  unfold headLine at h
  simp only [Bool.and_eq_true, decide_eq_true_eq] at h
  obtain ⟨⟨h1, h2⟩, h3⟩ := h
  have h4 : hd.head? = some '#' ∧ hd.getLast? = some '\n' := by
    unfold headingOk at h1
    split at h1
    · rename_i t
      simp only [Bool.and_eq_true, decide_eq_true_eq] at h1
      refine ⟨rfl, ?_⟩
      rw [List.getLast?_cons, h1.1]; rfl
    · cases h1
  refine ⟨h1, h4.1, h4.2, ?_, h3⟩
  obtain ⟨b, hb⟩ := List.getLast?_eq_some_iff.1 h4.2
  rw [hb, List.dropLast_concat] at h2
  have := splitLines_flatten_lines [hd] (by simp only [List.mem_singleton]; rintro l rfl; exact ⟨b, h2, hb⟩)
  simpa using this

theorem new_clean : commandMaps.all (fun y => y.2.all fun x => !x.2.new.inst.seen && x.2.new.inst.attrs.data.isEmpty) = true := by decide +kernel

theorem new_obj {v : Nat} (hv : Supported v) {r : Nat} {o : Obj CState Ns} (ho : (newHandler v).heap[r]? = some o) : o.inst.seen = false ∧ o.inst.attrs.data = [] := by
  have b : Registered (newHandler v) (commandMap v) := registerAll_registered (supported_mapOk hv).dict
  obtain ⟨h1, n, hn, -⟩ := b.objs r o ho
  have := List.all_eq_true.1 (List.all_eq_true.1 new_clean _ (supported_mem hv)) _ (mem_of_lookup' hn)
  simp only [Bool.and_eq_true, Bool.not_eq_true', List.isEmpty_iff] at this
  rw [h1]
  exact this

theorem new_noRivals {v : Nat} (hv : Supported v) (n : Str) : NoRivals (newHandler v) n := by
  intro a _ h
  unfold Handler.seenAttr at h
  cases hr : (newHandler v).attrs.lookup a with
  | none => simp [hr] at h
  | some r =>
    cases ho : (newHandler v).heap[r]? with
    | none => simp [hr, ho] at h
    | some o =>
      simp only [hr, ho] at h
      have := (new_obj hv ho).1
      simp_all

theorem new_noData {v : Nat} (hv : Supported v) (n : Str) : dataOf (newHandler v) n = [] := by
  unfold dataOf
  split
  · rename_i r _
    cases ho : (newHandler v).heap[r]? with
    | none => rfl
    | some o => exact (new_obj hv ho).2
  · rfl

/-- The object of a command that is not masked. -/
theorem class_object {v : Nat} (hv : Supported v) {g : Handler CState Ns} {m : Str} {c : Command} (sg : Session v g) (hcm : (commandMap v).lookup m = some c)
    (hmg : g.commands.lookup m ≠ some none) : ∃ o, objectOf g m = some o ∧ o.cls = c ∧ dataOf g m = o.inst.attrs.data := by
  have inv := session_inv hv sg
  match hlk : g.commands.lookup m with
  | none => rw [(inv.names m).1 hlk] at hcm; cases hcm
  | some none => exact absurd hlk hmg
  | some (some r) =>
    obtain ⟨o, ho, hmem⟩ := inv.served m r hlk
    refine ⟨o, by simp [objectOf, hlk, ho], ?_, data_serves hlk ho⟩
    have := (mem_iff_lookup (supported_mapOk hv).dict).1 hmem
    rw [hcm] at this; cases this; rfl

theorem lossless_class {v : Nat} (hv : Supported v) {n : Str} (hn : n ∈ lossless.map (·.1)) {c : Command} (hc : (commandMap v).lookup n = some c)
    (hli : c.hasList { attrs := {} } = true) : (commandMap v).lookup (writtenName n) = some c := by
  obtain ⟨x, hx, rfl⟩ := List.mem_map.1 hn
  have h1 : ∀ x ∈ lossless, (sheets.lookup x.1).isSome = true := by
    unfold lossless
    iterate 13 refine all_cons rfl ?_
    exact List.forall_mem_nil _
  obtain ⟨sheet, hsh⟩ := Option.isSome_iff_exists.1 (h1 x hx)
  have hnd : (lossless.map (·.1)).Nodup := by
    unfold lossless
    simp only [List.map_cons, List.map_nil]
    decide
  exact written_class hv hsh ((mem_iff_lookup hnd).1 hx) hc hli

theorem alpha_not_space {x : Char} (h : x.isAlpha = true) : isSpace x = false := by
  simp only [Char.isAlpha, Char.isUpper, Char.isLower, Bool.or_eq_true, Bool.and_eq_true, decide_eq_true_eq] at h
  have h1 : 65 ≤ x.toNat ∧ x.toNat ≤ 122 := by
    rcases h with ⟨a, b⟩ | ⟨a, b⟩ <;> simp only [UInt32.le_iff_toNat_le] at a b <;>
      change 65 ≤ x.val.toNat ∧ x.val.toNat ≤ 122 <;> simp at a b ⊢ <;> omega
  unfold isSpace
  simp
  omega

/-- Texts of one line each. -/
theorem items_of {body : Ns → Str} {w : Str} (hw : ∃ x t, w = x :: t ∧ x ≠ '%') {P : Ns → List Str → Prop} {ds : List Ns} {wss : List (List Str)} (hF : List.Forall₂ P ds wss)
    (hP : ∀ d ws, d ∈ ds → P d ws → splitLines (body d) = [body d] ∧ (body d).getLast? = some '\n' ∧ isBlankOrComment (body d) = false ∧ shlexSplit (body d) true = .ok ws ∧
      ∃ args, ws = w :: args) :
    ∃ ps : List (Str × List Str), ps.map (·.2) = wss ∧ lineItems (ds.map body).flatten = ps.map (fun p => .cmd p.1 p.2) ∧
      ((ds.map body).flatten = [] ∨ (ds.map body).flatten.getLast? = some '\n') ∧ (∀ p ∈ ps, CmdLine p.1 p.2 ∧ ∃ args, p.2 = w :: args) := by
  induction hF with
  | nil => exact ⟨[], rfl, rfl, .inl rfl, by simp⟩
  | @cons d ws ds wss h1 _ ih =>
    obtain ⟨ps, e1, e2, e3, e4⟩ := ih fun d ws hd => hP d ws (List.mem_cons_of_mem _ hd)
    obtain ⟨f1, f2, f3, f4, args, rfl⟩ := hP d ws (by simp) h1
    refine ⟨(body d, w :: args) :: ps, by rw [List.map_cons, e1], ?_, .inr ?_, ?_⟩
    · rw [List.map_cons, List.flatten_cons, lineItems_append (.inr f2), e2, List.map_cons]
      simp only [lineItems, f1, List.map_cons, List.map_nil, lineItem, f3, f4]
      rfl
    · rw [List.map_cons, List.flatten_cons, List.getLast?_append]
      rcases e3 with e3 | e3 <;> rw [e3]
      · exact f2
      · rfl
    · intro p hp
      rcases List.mem_cons.1 hp with rfl | hp
      · obtain ⟨x, t, rfl, hx⟩ := hw
        exact ⟨⟨f3, f4, x, t, args, rfl, hx⟩, args, rfl⟩
      · exact e4 p hp

/-- C75: the text of a command of the table `lossless` is stable if its objects lose nothing when they are written and each
of them is written on one line. -/
theorem C75_lists {v : Nat} (hv : Supported v) {n : Str} (hl : ListCommand v n) (hn : n ∈ lossless.map (·.1)) {h : Handler CState Ns} (s : Session v h)
    (hm : h.commands.lookup n ≠ some none) (hall : ∀ d ∈ dataOf h n, WritesAll v n d) (hone : ∀ d ∈ dataOf h n, OneLine v n d) :
    StableText v n (textOf h n) := by
  obtain ⟨wss, hF, hread⟩ := C74_list_restored hv hl hn s hm hall
  obtain ⟨c, hc, hli⟩ := hl
  obtain ⟨hd, body, hhd, hstr, hbody⟩ := framed_all n (by simpa [lossless] using hn) _ (supported_mem hv) c hc hli
  have hcm := lossless_class hv hn hc hli
  have htext : textOf h n = if ((dataOf h n).map body).flatten.isEmpty then [] else hd ++ ((dataOf h n).map body).flatten := by
    obtain ⟨o, o1, o2, o3⟩ := class_object hv s hc hm
    unfold textOf
    rw [o1, o3]
    simp only [o2]
    exact hstr _
  -- the lines of the objects
  have hd1 : ∀ d ws, d ∈ dataOf h n → shlexSplit (objectText v n d) true = .ok ws → ∃ args, ws = writtenName n :: args := by
    intro d ws hd hw
    obtain ⟨-, -, -, args, h1, -⟩ := normal_text hv hc hli s hd (hall d hd)
    rw [h1] at hw; cases hw; exact ⟨args, rfl⟩
  have hline : ∀ d ∈ dataOf h n, ∀ ws, shlexSplit (objectText v n d) true = .ok ws →
      splitLines (body d) = [body d] ∧ (body d).getLast? = some '\n' ∧ isBlankOrComment (body d) = false ∧ shlexSplit (body d) true = .ok ws := by
    intro d hdm ws hws
    obtain ⟨args, rfl⟩ := hd1 d ws hdm hws
    have ho := hone d hdm
    have hot : objectText v n d = if (body d).isEmpty then [] else hd ++ body d := by
      simp only [objectText, hc]
      rw [hstr]
      simp
    unfold OneLine at ho
    rw [hot] at hws ho
    rcases hbody d with he | ⟨⟨x, t, hx, hxa⟩, hlast⟩
    · rw [he] at hws; cases hws
    · have hne : (body d).isEmpty = false := by rw [hx]; rfl
      rw [hne, if_neg (by simp)] at hws ho
      have hws' : shlexSplit (body d) true = .ok (writtenName n :: args) := by
        rcases hhd with rfl | hhd
        · exact hws
        · rwa [lex_heading (headLine_facts hhd).1] at hws
      have hxh : x ≠ '#' := by
        rintro rfl
        rcases hxa with h | h <;> exact absurd h (by decide)
      have hone' : (splitLines (body d)).length = 1 := by
        rcases hhd with rfl | hhd
        · rw [List.nil_append, hx, if_neg (by simpa using hxh)] at ho
          rw [hx]; exact ho
        · obtain ⟨-, f1, f2, f3, -⟩ := headLine_facts hhd
          rw [splitLines_append (.inr f2), f3, if_pos (by rw [List.head?_append, f1]; rfl)] at ho
          simpa using ho
      have hsp := splitLines_one hone'
      refine ⟨hsp, hlast, ?_, hws'⟩
      rcases hxa with hxa | rfl
      · have hsx := alpha_not_space hxa
        simp only [isBlankOrComment, strIsSpace, hx, lstrip, List.isEmpty_cons, List.all_cons, hsx, List.dropWhile_cons]
        simpa using hxh
      · exfalso
        match t, hx with
        | [], hx => rw [hx] at hws'; cases hws'
        | y :: t, hx =>
          have hsp2 : splitLines ('\n' :: y :: t) = ['\n'] :: splitLines (y :: t) := splitLines_append (a := ['\n']) (.inr rfl)
          have h3 := splitLines_flatten (y :: t)
          rw [hx, hsp2, List.length_cons] at hone'
          rw [List.length_eq_zero_iff.1 (by omega : (splitLines (y :: t)).length = 0)] at h3
          cases h3
  have hwn : ∃ x t, writtenName n = x :: t ∧ x ≠ '%' := by
    have : ∀ m ∈ lossless.map (·.1), ∃ x t, writtenName m = x :: t ∧ x ≠ '%' := by
      unfold lossless
      simp only [List.map_cons, List.map_nil]
      iterate 13 refine all_cons ⟨_, _, rfl, by decide⟩ ?_
      exact List.forall_mem_nil _
    exact this n hn
  obtain ⟨ps, e1, e2, e3, e4⟩ := items_of (body := body) hwn hF fun d ws hdm hws => by
    obtain ⟨f1, f2, f3, f4⟩ := hline d hdm ws hws
    exact ⟨f1, f2, f3, f4, hd1 d ws hdm hws⟩
  have hserve : SameObject v (writtenName n) n := by
    obtain ⟨r, h1, h2⟩ := new_object hv hc
    obtain ⟨r', h3, h4⟩ := new_object hv hcm
    have b : Registered (newHandler v) (commandMap v) := registerAll_registered (supported_mapOk hv).dict
    have : r' = r := b.distinct r' r (List.getElem?_eq_some_iff.1 h4).1 (List.getElem?_eq_some_iff.1 h2).1 (by simp only [Handler.className, h2, h4])
    unfold SameObject
    rw [show (newHandler v).commands.lookup (writtenName n) = _ from h3, show (newHandler v).commands.lookup n = _ from h1, this]
  have hnew : (newHandler v).commands.lookup (writtenName n) ≠ some none := by
    obtain ⟨r', h1', h2'⟩ := new_object hv hcm
    rw [show (newHandler v).commands.lookup (writtenName n) = some (some r') from h1']
    simp
  have hcmds : ∀ it ∈ ps.map (fun p => Item.cmd p.1 p.2), OwnLine v n it := by
    intro it hit
    obtain ⟨p, hp, rfl⟩ := List.mem_map.1 hit
    obtain ⟨h1, args, h2⟩ := e4 p hp
    refine ⟨h1, ?_⟩
    rw [h2, List.headD_cons]
    exact hserve
  have hboth : (∀ it ∈ lineItems (textOf h n), OwnLine v n it) ∧
      ∃ k, runH 0 (lineItems (textOf h n)) (newHandler v) = readAll (atLines k ps) (newHandler v) := by
    rw [htext]
    split
    · rename_i he
      rw [List.isEmpty_iff.1 he] at e2
      have : ps = [] := by simpa [lineItems, splitLines] using e2.symm
      subst this
      exact ⟨by simp [lineItems, splitLines], 0, rfl⟩
    · rcases hhd with rfl | hhd
      · rw [List.nil_append, e2]
        exact ⟨hcmds, 0, runH_readAll 0 ps _⟩
      · obtain ⟨-, f1, f2, f3, f4⟩ := headLine_facts hhd
        have hsk : SkipLine hd := by
          obtain ⟨t, rfl⟩ := List.head?_eq_some_iff.1 f1
          exact ⟨by simp, by simp [isBlankOrComment, lstrip, show isSpace '#' = false by decide]⟩
        have h1 : lineItems hd = [.skip hd] := by simp only [lineItems, f3, List.map_cons, List.map_nil, lineItem, hsk.2, if_true]
        rw [lineItems_append (.inr f2), e2, h1]
        refine ⟨fun it hit => ?_, 1, runH_readAll 1 ps _⟩
        rcases List.mem_cons.1 hit with rfl | hit
        · exact ⟨hsk, f4⟩
        · exact hcmds it hit
  obtain ⟨hitems, hrun⟩ := hboth
  obtain ⟨k, hrun⟩ := hrun
  obtain ⟨g1, -, g3⟩ := hread _ .new hnew (new_noRivals hv _) (atLines k ps) (by rw [atLines_words, e1])
  refine ⟨?_, hitems, (congrArg Prod.snd hrun).trans g1, ?_⟩
  · rw [htext]
    split
    · exact .inl rfl
    · right
      rw [List.getLast?_append]
      rcases e3 with e3 | e3
      · rename_i hne; rw [e3] at hne; exact absurd rfl hne
      · rw [e3]; rfl
  · have hsh := (runH_session (v := v) .new (lineItems (textOf h n)) 0).2
    have : textOf (runH 0 (lineItems (textOf h n)) (newHandler v)).1 n = textOf (runH 0 (lineItems (textOf h n)) (newHandler v)).1 (writtenName n) := by
      generalize (runH 0 (lineItems (textOf h n)) (newHandler v)).1 = g at hsh ⊢
      unfold textOf objectOf
      rw [hsh.commands, ← show (newHandler v).commands.lookup (writtenName n) = _ from hserve]
    refine this.trans ?_
    rw [hrun]
    exact g3 (new_noData hv _)

/-- C75: a handler that has read lines, and in which each command that has read one is a command of the table whose objects lose
nothing and are written on one line each, or has a stable text, and no text is next to one of a command that excludes it. Its
whole text is read without an exception, and written again as it is. -/
theorem C75_lists_file {v : Nat} (hv : Supported v) (hl : v ∉ liloVersions) (ls : List (Nat × List Str × Str))
    (hst : ∀ n c, (commandMap v).lookup n = some c → c.prio ≠ none → ¬ Unread (readLines v ls) n →
      (ListCommand v n ∧ n ∈ lossless.map (·.1) ∧ ∀ d ∈ dataOf (readLines v ls) n, WritesAll v n d ∧ OneLine v n d) ∨ StableText v n (textOf (readLines v ls) n))
    (hR : ∀ n, textOf (readLines v ls) n ≠ [] → ∀ a ∈ rivals n, textOf (readLines v ls) a = []) (k : Nat) :
    let r := runCommands Handler.dispatch k (lineItems (readLines v ls).str) (newHandler v)
    r.2 = none ∧ r.1.str = (readLines v ls).str := by
  have key : ∀ n c, (commandMap v).lookup n = some c → c.prio ≠ none → ¬ Unread (readLines v ls) n → StableText v n (textOf (readLines v ls) n) := by
    intro n c hc hp hu
    rcases hst n c hc hp hu with ⟨h1, h2, h3⟩ | h1
    · refine C75_lists hv h1 h2 (readLines_session v ls) ?_ (fun d hd => (h3 d hd).1) fun d hd => (h3 d hd).2
      rw [(readLines_shape v ls).commands]
      obtain ⟨r, hr, -⟩ := new_object hv hc
      rw [show (newHandler v).commands.lookup n = some (some r) from hr]
      simp
    · exact h1
  obtain ⟨-, -, h3⟩ := C75_stable hv hl ls key hR
  exact ⟨(h3 k).1, (h3 k).2.1⟩

/-! ### The hypotheses can be met -/

example : ∀ n ∈ [c!"part", c!"partition", c!"user"], ListCommand Version.F34 n ∧ n ∈ lossless.map (·.1) ∧
    dataOf (readLines Version.F34 stableLines) n ≠ [] ∧ ∀ d ∈ dataOf (readLines Version.F34 stableLines) n, WritesAll Version.F34 n d ∧ OneLine Version.F34 n d := by decide +kernel

/-- The second condition is needed: a gecos with a line break is written on two lines, and these are not accepted. -/
theorem C75_two_lines :
    let h := readLines Version.F34 [(1, [c!"user", c!"--name=joe", c!"--gecos=a\nb"], [])]
    (∀ d ∈ dataOf h c!"user", WritesAll Version.F34 c!"user" d ∧ ¬ OneLine Version.F34 c!"user" d) ∧ dataOf h c!"user" ≠ [] ∧
    ¬ StableText Version.F34 c!"user" (textOf h c!"user") := by decide +kernel

end Ks
