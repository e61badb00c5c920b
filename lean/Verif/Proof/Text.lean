import Verif.Spec.Text
import Verif.Proof.Split
import Verif.Proof.Order

set_option linter.unusedSimpArgs false

/-! # Lemmas on failures -/

namespace Verif.Text

open Str Spec

theorem itoa_eq_zero {n : Int} : itoa n = s%"0" ↔ n = 0 := by
  constructor
  · intro h
    unfold itoa at h
    split at h
    · simp at h
    · have h0 : natStr 0 = s%"0" := by decide
      rw [← h0] at h
      have := natStr_inj h
      omega
  · rintro rfl; decide

theorem itoa_ne_nil (n : Int) : itoa n ≠ [] := by
  unfold itoa
  split
  · simp
  · exact natStr_ne_nil _

theorem fieldOutput_known (f : Failure) {field : FailureField} (h : KnownField field) :
    fieldOutput f field =
      some (if shownField f field = [] then none else some (shownField f field)) := by
  rcases h with rfl | rfl | rfl | rfl | rfl
  · by_cases h : f.filename = [] <;> simp [fieldOutput, shownField, h]
  · by_cases h : f.line = 0 <;>
      simp [fieldOutput, shownField, shownPosition, itoa_eq_zero, h, itoa_ne_nil,
        fieldFilename, fieldLine, fieldColumn, fieldID, fieldMessage]
  · by_cases h : f.column = 0 <;>
      simp [fieldOutput, shownField, shownPosition, itoa_eq_zero, h, itoa_ne_nil,
        fieldFilename, fieldLine, fieldColumn, fieldID, fieldMessage]
  · by_cases h : f.lintID = [] <;>
      simp [fieldOutput, shownField, h, fieldFilename, fieldLine, fieldColumn, fieldID, fieldMessage]
  · by_cases h : f.message = [] <;>
      simp [fieldOutput, shownField, h, fieldFilename, fieldLine, fieldColumn, fieldID, fieldMessage]

theorem fieldOutput_unknown (f : Failure) {field : FailureField} (h : ¬ KnownField field) :
    fieldOutput f field = none := by
  simp only [KnownField, not_or] at h
  simp [fieldOutput, h]

/-- The final text of the loop of `Fprintln`. -/
theorem fprintGo_known (f : Failure) (fields : List FailureField)
    (h : ∀ x ∈ fields, KnownField x) (out : Str) (written : Bool) :
    fprintGo f fields out written =
      (out ++
        (if written = true ∨ shownTexts f fields ≠ [] then
          join s%":" (shownTexts f fields) ++
            (if shownTexts f fields ≠ [] ∧ ∃ x, fields.getLast? = some x ∧ shownField f x = []
              then s%":" else []) ++ s%"\n"
        else []), true) := by
  induction fields generalizing out written with
  | nil => cases written <;> simp [fprintGo, shownTexts, join]
  | cons x xs ih =>
    have hx := h x (List.mem_cons_self ..)
    have ih' := fun out written => ih (fun y hy => h y (List.mem_cons_of_mem _ hy)) out written
    rw [fprintGo, fieldOutput_known f hx]
    by_cases he : shownField f x = []
    · have hs : shownTexts f (x :: xs) = shownTexts f xs := by simp [shownTexts, he]
      simp only [he, if_true, hs, ih']
      cases xs with
      | nil => simp [shownTexts, join]
      | cons y ys => simp [List.getLast?_cons_cons]
    · have hs : shownTexts f (x :: xs) = shownField f x :: shownTexts f xs := by
        simp [shownTexts, he]
      simp only [he, if_false, hs, ih']
      cases xs with
      | nil => simp [shownTexts, join, he]
      | cons y ys =>
        simp only [ne_eq, reduceCtorEq, not_false_eq_true, if_true, true_or, or_true, true_and,
          List.getLast?_cons_cons]
        cases hst : shownTexts f (y :: ys) with
        | cons t ts => simp [join]
        | nil =>
          have : ∃ z, (y :: ys).getLast? = some z ∧ shownField f z = [] := by
            cases hl : (y :: ys).getLast? with
            | none => simp at hl
            | some z =>
              refine ⟨z, rfl, ?_⟩
              by_cases hz : shownField f z = []
              · exact hz
              · have : shownField f z ∈ shownTexts f (y :: ys) := by
                  simp only [shownTexts, List.mem_filter, decide_eq_true_eq]
                  exact ⟨List.mem_map.mpr ⟨z, List.mem_of_getLast? hl, rfl⟩, by simpa using hz⟩
                rw [hst] at this
                exact absurd this (by simp)
          simp [join, this]

theorem fprintGo_unknown (f : Failure) (fields : List FailureField) (x : FailureField)
    (hx : x ∈ fields) (h : ¬ KnownField x) (out : Str) (written : Bool) :
    (fprintGo f fields out written).2 = false := by
  induction fields generalizing out written with
  | nil => cases hx
  | cons y ys ih =>
    rw [fprintGo]
    by_cases hy : KnownField y
    · have hx' : x ∈ ys := by
        rcases List.mem_cons.mp hx with e | hx
        · exact absurd (e ▸ hy) h
        · exact hx
      rw [fieldOutput_known f hy]
      by_cases he : shownField f y = []
      · simp only [he, if_true]; exact ih hx' _ _
      · simp only [he, if_false]
        split <;> exact ih hx' _ _
    · simp [fieldOutput_unknown f hy]

/-! ## The order of failures -/

theorem swo_lessFailure : SWO lessFailure := by
  have h := (SWO.str.on Failure.filename).lex ((SWO.int.on Failure.line).lex
    ((SWO.int.on Failure.column).lex ((SWO.str.on Failure.lintID).lex
      (SWO.str.on Failure.message))))
  simp only [decide_eq_true_eq] at h
  exact h

theorem swo_less : SWO less where
  asymm a b := by
    cases a <;> cases b <;> simp [less]
    exact swo_lessFailure.asymm _ _
  negTrans a b c := by
    cases a <;> cases b <;> cases c <;> simp [less]
    exact swo_lessFailure.negTrans _ _ _

theorem str_lt_iff {a b : Str} (h : Str.lt a b = false) (h' : Str.lt b a = false) : a = b := by
  rcases Str.lt_trichotomy a b with e | e | e
  · rw [e] at h; cases h
  · exact e
  · rw [e] at h'; cases h'

theorem lessFailure_iff {f g : Failure} : lessFailure f g = true ↔ Before f g := by
  unfold lessFailure Before
  by_cases h1 : Str.lt f.filename g.filename = true
  · simp [h1]
  · simp only [h1, if_false, Bool.false_eq_true, false_or]
    by_cases h1' : Str.lt g.filename f.filename = true
    · simp only [h1', if_true]
      constructor
      · intro h; cases h
      · rintro ⟨e, _⟩; rw [e, Str.lt_irrefl] at h1'; cases h1'
    · have e := str_lt_iff (by simpa using h1) (by simpa using h1')
      simp only [e, Str.lt_irrefl, true_and, if_false, Bool.false_eq_true]
      by_cases h2 : f.line < g.line
      · simp [h2]
      · simp only [h2, if_false, false_or]
        by_cases h2' : g.line < f.line
        · simp only [h2', if_true]
          constructor
          · intro h; cases h
          · rintro ⟨e, _⟩; omega
        · have e : f.line = g.line := by omega
          simp only [e, true_and, Int.lt_irrefl, if_false]
          by_cases h3 : f.column < g.column
          · simp [h3]
          · simp only [h3, if_false, false_or]
            by_cases h3' : g.column < f.column
            · simp only [h3', if_true]
              constructor
              · intro h; cases h
              · rintro ⟨e, _⟩; omega
            · have e : f.column = g.column := by omega
              simp only [e, true_and, Int.lt_irrefl, if_false]
              by_cases h4 : Str.lt f.lintID g.lintID = true
              · simp [h4]
              · simp only [h4, if_false, Bool.false_eq_true, false_or]
                by_cases h4' : Str.lt g.lintID f.lintID = true
                · simp only [h4', if_true]
                  constructor
                  · intro h; cases h
                  · rintro ⟨e, _⟩; rw [e, Str.lt_irrefl] at h4'; cases h4'
                · have e := str_lt_iff (by simpa using h4) (by simpa using h4')
                  simp [e, Str.lt_irrefl]

theorem lessFailure_anti {f g : Failure} (h : lessFailure f g = false) (h' : lessFailure g f = false) :
    f = g := by
  rw [Bool.eq_false_iff, ne_eq, lessFailure_iff] at h h'
  simp only [Before, not_or, not_and] at h h'
  have e1 := str_lt_iff (by simpa using h.1) (by simpa using h'.1)
  have h := h.2 e1
  have h' := h'.2 e1.symm
  have e2 : f.line = g.line := by omega
  have h := h.2 e2
  have h' := h'.2 e2.symm
  have e3 : f.column = g.column := by omega
  have h := h.2 e3
  have h' := h'.2 e3.symm
  have e4 := str_lt_iff (by simpa using h.1) (by simpa using h'.1)
  have h := h.2 e4
  have h' := h'.2 e4.symm
  have e5 := str_lt_iff (by simpa using h) (by simpa using h')
  cases f; cases g
  simp at *
  exact ⟨e1, e2, e3, e4, e5⟩

end Verif.Text
