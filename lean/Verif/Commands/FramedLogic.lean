import Verif.Commands.NormalLogic
import Verif.Commands.Stripped
/-!
# Texts of data lists: a comment, then a line for every object
-/
namespace Ks

/-- A template that begins with a letter and ends with a line end, or gives nothing or only a line end: the other pieces are
written only if the first one is. -/
def Out.framed (o : Out) : Bool :=
  match o, o.getLast? with
  | (c, .lit (x :: _) :: _) :: _, some (e, fs) =>
    o.dropLast.all (fun p => p.1.follows c) && (e.follows c || decide (fs = [.lit c!"\n"])) && c.follows e && x.isAlpha &&
      (match fs.getLast? with | some (.lit s) => decide (s.getLast? = some '\n') | _ => false)
  | _, _ => false

/-- A comment line that does not give the platform. -/
def headLine (hd : Str) : Bool := headingOk hd && decide (NoBreak hd.dropLast) && decide (hd.take 10 ≠ c!"#platform=")

/-- The text of a data list is nothing or a comment (or none), and then a text for every object that is empty or begins with
a letter or a line end and ends with a line end. -/
def Command.Framed (c : Command) : Prop :=
  ∃ (hd : Str) (body : Ns → Str), (hd = [] ∨ headLine hd = true) ∧
    (∀ i : Inst CState, c.str i = if (i.attrs.data.map body).flatten.isEmpty then [] else hd ++ (i.attrs.data.map body).flatten) ∧
    ∀ d, body d = [] ∨ (∃ x t, body d = x :: t ∧ (x.isAlpha = true ∨ x = '\n')) ∧ (body d).getLast? = some '\n'

theorem framed_render {o : Out} (h : o.framed = true) (d : Ns) :
    o.render d = [] ∨ (∃ x t, o.render d = x :: t ∧ (x.isAlpha = true ∨ x = '\n')) ∧ (o.render d).getLast? = some '\n' := by
  unfold Out.framed at h
  split at h
  · rename_i c x w rest t e fs hlast
    simp only [Bool.and_eq_true, Bool.or_eq_true, decide_eq_true_eq] at h
    obtain ⟨⟨⟨⟨h1, h5⟩, h2⟩, h3⟩, h4⟩ := h
    obtain ⟨ini, hini⟩ := List.getLast?_eq_some_iff.1 hlast
    by_cases hc : c.eval d = true
    · right
      refine ⟨⟨x, _, by simp only [Out.render, List.map_cons, List.flatten_cons, pieceText, hc, if_true, Frag.render, List.cons_append]; rfl, .inl h3⟩, ?_⟩
      rw [hini]
      have he := follows_sound hc h2
      split at h4
      · rename_i s hfs
        obtain ⟨fi, hfi⟩ := List.getLast?_eq_some_iff.1 hfs
        obtain ⟨si, hsi⟩ := List.getLast?_eq_some_iff.1 (of_decide_eq_true h4)
        simp only [Out.render, List.map_append, List.map_cons, List.map_nil, List.flatten_append, List.flatten_cons, List.flatten_nil, pieceText, he, if_true, hfi,
          Frag.render, hsi, List.append_nil, ← List.append_assoc, List.getLast?_concat]
      · cases h4
    · rw [hini] at h1 ⊢
      rw [List.dropLast_concat] at h1
      have hin : Out.render ini d = [] := by
        unfold Out.render
        rw [List.flatten_eq_nil_iff]
        intro l hl
        obtain ⟨p, hp, rfl⟩ := List.mem_map.1 hl
        rw [pieceText, if_neg]
        intro hpe
        exact hc (follows_sound hpe (List.all_eq_true.1 h1 p hp))
      rw [render_append, hin, List.nil_append]
      by_cases he : e.eval d = true
      · rcases h5 with h5 | rfl
        · exact absurd (follows_sound he h5) hc
        · right
          have : Out.render [(e, [Frag.lit c!"\n"])] d = c!"\n" := by simp [Out.render, pieceText, he, Frag.render]
          rw [this]
          exact ⟨⟨_, _, rfl, .inr rfl⟩, rfl⟩
      · left
        simp [Out.render, pieceText, he]
  · cases h

theorem list_framed {name : Str} {prio : Option Int} {cinit : Ns} {dc : DataCls} {parse : List Str → M Ns} {str : List Str → Str} {o : Out}
    (hstr : ∀ d, dc.str d = o.render d) (hs : str = listStr ∨ ∃ hd, headLine hd = true ∧ str = headedListStr hd) (ho : o.framed = true) :
    (listCmd name prio cinit dc parse str).Framed := by
  rcases hs with rfl | ⟨hd, hok, rfl⟩
  · refine ⟨[], dc.str, .inl rfl, fun i => ?_, fun d => by rw [hstr]; exact framed_render ho d⟩
    change (i.attrs.data.map dc.str).flatten = _
    split
    · rename_i h; exact List.isEmpty_iff.1 h
    · rfl
  · exact ⟨hd, dc.str, .inr hok, fun i => rfl, fun d => by rw [hstr]; exact framed_render ho d⟩

end Ks
