import Verif.Model.Settings
import Verif.Spec.FormatText
import Verif.Proof.Strs
import Verif.Proof.Split

/-! # File headers -/

namespace Verif.Settings

open Verif Str Spec

theorem join_head {sep w : Str} {ls : List Str} (hw : w ≠ []) :
    (join sep (w :: ls)).head? = w.head? := by
  cases w with
  | nil => exact absurd rfl hw
  | cons c w =>
    cases ls with
    | nil => rfl
    | cons l ls => rfl

theorem join_last {sep w : Str} {ls : List Str} (hw : w ≠ []) :
    (join sep (ls ++ [w])).getLast? = w.getLast? := by
  by_cases hne : ls = []
  · subst hne; rfl
  · rw [join_append_last sep hne, List.getLast?_append, List.getLast?_eq_some_getLast hw]
    rfl

/-- The first and the last line of a trimmed text are not blank. -/
theorem trimmed_split {s : Str} (h : Trimmed s) (hne : s ≠ []) :
    (∃ w ws c, splitChar '\n' s = w :: ws ∧ w.head? = some c ∧ isSpace c = false) ∧
    ∃ w ws c, splitChar '\n' s = ws ++ [w] ∧ w.getLast? = some c ∧ isSpace c = false := by
  have hj := join_splitChar '\n' s
  have hs := splitChar_ne_nil '\n' s
  constructor
  · cases hl : splitChar '\n' s with
    | nil => exact absurd hl hs
    | cons w ws =>
      rw [hl] at hj
      have hw : w ≠ [] := by
        rintro rfl
        cases ws with
        | nil => exact hne hj.symm
        | cons v ws =>
          have : s.head? = some '\n' := by rw [← hj]; rfl
          have := h.1 _ this
          revert this; decide
      cases w with
      | nil => exact absurd rfl hw
      | cons c w =>
        refine ⟨c :: w, ws, c, rfl, rfl, h.1 c ?_⟩
        rw [← hj, join_head hw]; rfl
  · have hlast := List.dropLast_concat_getLast hs
    generalize (splitChar '\n' s).getLast hs = w at hlast
    generalize (splitChar '\n' s).dropLast = ws at hlast
    rw [← hlast] at hj
    have hw : w ≠ [] := by
      rintro rfl
      by_cases hws : ws = []
      · subst hws; exact hne hj.symm
      · rw [join_append_last _ hws, List.append_nil] at hj
        have : s.getLast? = some '\n' := by rw [← hj, List.getLast?_append]; rfl
        have := h.2 _ this
        revert this; decide
    refine ⟨w, ws, w.getLast hw, hlast.symm, List.getLast?_eq_some_getLast hw, h.2 _ ?_⟩
    rw [← hj, join_last hw, List.getLast?_eq_some_getLast hw]

/-- A line of a header. -/
structure HeaderLine (l : Str) : Prop where
  trimmed : Trimmed l
  flat : '\n' ∉ l

theorem trimSpace_mem {s : Str} {c : Char} (h : c ∈ trimSpace s) : c ∈ s := by
  have h1 := (trimRightBy_prefix isSpace (trimLeftBy isSpace s)).subset h
  exact (List.dropWhile_suffix _).subset h1

theorem trimSpace_ne_nil {s : Str} {c : Char} (hc : c ∈ s) (hsp : isSpace c = false) : trimSpace s ≠ [] := by
  have keep : ∀ {l : Str}, c ∈ l → c ∈ l.dropWhile isSpace := by
    intro l
    induction l with
    | nil => exact id
    | cons x l ih =>
      intro h
      rw [List.dropWhile_cons]
      split
      · rename_i hx
        rcases List.mem_cons.1 h with rfl | h
        · rw [hsp] at hx; cases hx
        · exact ih h
      · exact h
  have : c ∈ trimSpace s := by
    unfold trimSpace trimRightBy trimLeftBy
    exact List.mem_reverse.2 (keep (List.mem_reverse.2 (keep hc)))
  intro h
  rw [h] at this
  exact List.not_mem_nil this

theorem header_lines (content : Str) : ∀ l ∈ getFileHeaderLines content, HeaderLine l := by
  intro l hl
  obtain ⟨w, hw, rfl⟩ := List.mem_map.1 hl
  exact ⟨trimmed_trimSpace w, fun h => splitChar_no_sep hw (trimSpace_mem h)⟩

theorem commentLine_line {l : Str} (h : HeaderLine l) : HeaderLine (commentLine l) := by
  unfold commentLine
  split
  · exact ⟨trimmed_of_all (by decide), by decide⟩
  · rename_i hne
    refine ⟨⟨?_, ?_⟩, ?_⟩
    · intro c hc
      cases Option.some.inj hc
      rfl
    · intro c hc
      rw [List.getLast?_append, List.getLast?_eq_some_getLast hne] at hc
      refine h.trimmed.2 c ?_
      rw [List.getLast?_eq_some_getLast hne]
      exact hc
    · rw [List.mem_append]
      exact fun h' => h'.elim (by decide) h.flat

theorem lines_clean {ls : List Str} (h : ∀ l ∈ ls, HeaderLine l) : CleanLines (join s%"\n" ls) := by
  intro l hl c hc
  by_cases hne : ls = []
  · subst hne
    rw [List.mem_singleton.1 (show l ∈ [[]] from hl)] at hc
    cases hc
  · rw [show (s%"\n" : Str) = ['\n'] from rfl, splitChar_join '\n' hne fun w hw => (h w hw).flat] at hl
    exact (h l hl).trimmed.2 c hc

theorem lines_trimmed {ls : List Str} (h : ∀ l ∈ ls, HeaderLine l) (hf : ∀ w, ls.head? = some w → w ≠ [])
    (hl : ∀ w, ls.getLast? = some w → w ≠ []) : Trimmed (join s%"\n" ls) := by
  constructor
  · intro c hc
    cases ls with
    | nil => cases hc
    | cons w ws =>
      rw [join_head (hf w rfl)] at hc
      exact (h w List.mem_cons_self).trimmed.1 c hc
  · intro c hc
    by_cases hne : ls = []
    · subst hne; cases hc
    · have hlast := List.dropLast_concat_getLast hne
      have hm := List.getLast_mem hne
      rw [← hlast, join_last (hl _ (List.getLast?_eq_some_getLast hne))] at hc
      exact (h _ hm).trimmed.2 c hc

theorem header_trimmed {content : Str} (f : Str → Str)
    (hf : ∀ l, HeaderLine l → HeaderLine (f l)) (hne : ∀ l, l ≠ [] → f l ≠ []) :
    Trimmed (join s%"\n" ((getFileHeaderLines content).map f)) := by
  have hall : ∀ l ∈ (getFileHeaderLines content).map f, HeaderLine l := by
    intro l hl
    obtain ⟨w, hw, rfl⟩ := List.mem_map.1 hl
    exact hf w (header_lines content w hw)
  by_cases hc : trimSpace content = []
  · have : getFileHeaderLines content = [[]] := by unfold getFileHeaderLines; rw [hc]; rfl
    rw [this] at hall ⊢
    exact (hall _ (List.mem_singleton.2 rfl)).trimmed
  · obtain ⟨⟨w, ws, c, h1, h2, h3⟩, w', ws', c', h1', h2', h3'⟩ := trimmed_split (trimmed_trimSpace content) hc
    refine lines_trimmed hall ?_ ?_
    · intro v hv
      unfold getFileHeaderLines at hv
      rw [h1] at hv
      cases hv
      exact hne _ (trimSpace_ne_nil (List.mem_of_head? h2) h3)
    · intro v hv
      unfold getFileHeaderLines at hv
      rw [h1', List.map_append, List.map_append, List.getLast?_append] at hv
      cases hv
      exact hne _ (trimSpace_ne_nil (List.mem_of_getLast? h2') h3')

/-- A configured file header has clean lines and no white space around it. -/
theorem fileHeaderOf_clean {h : Host} {e : ExternalConfig} {dirPath header : Str}
    (hh : fileHeaderOf h e dirPath = .ok header) : CleanLines header ∧ Trimmed header := by
  unfold fileHeaderOf at hh
  split at hh
  · split at hh
    · cases hh
    · cases hc : fileHeaderContentOf h e dirPath with
      | error err => rw [hc] at hh; cases hh
      | ok content =>
        rw [hc] at hh
        dsimp only at hh
        split at hh
        · split at hh
          · cases hh
          · cases hh
            refine ⟨lines_clean fun l hl => ?_, header_trimmed commentLine (fun _ => commentLine_line) ?_⟩
            · obtain ⟨w, hw, rfl⟩ := List.mem_map.1 hl
              exact commentLine_line (header_lines content w hw)
            · intro l _; unfold commentLine; split <;> simp
        · split at hh
          · cases hh
          · cases hh
            refine ⟨lines_clean (header_lines content), ?_⟩
            have := header_trimmed (content := content) id (fun _ h => h) (fun _ h => h)
            rwa [List.map_id] at this
  · cases hh
    refine ⟨fun l hl c hc => ?_, trimmed_of_all (fun _ h => (List.not_mem_nil h).elim)⟩
    rw [List.mem_singleton.1 (show l ∈ [[]] from hl)] at hc
    cases hc

end Verif.Settings
