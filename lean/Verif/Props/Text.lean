import Verif.Proof.Text

/-! # C17, C18: failure lines and failure order -/

namespace Verif.Props

open Verif Str Spec Text

/-! ## C17 -/

/-- C17, exact form: with known fields the line consists of the non-empty selected
fields joined by colons and a newline, except that a colon is left dangling before
the newline when the last selected field is empty; nothing at all is written when
every selected field is empty. -/
theorem C17_line_shape (f : Failure) (fields : List FailureField)
    (h : ∀ x ∈ fields, KnownField x) :
    let shown := shownTexts f (selectedFields fields)
    fprintln f fields =
      (if shown = [] then []
       else join s%":" shown ++
        (if ∃ x, (selectedFields fields).getLast? = some x ∧ shownField f x = [] then s%":" else [])
        ++ s%"\n", true) := by
  intro shown
  have e : (if fields.length = 0 then defaultFailureFields else fields) = selectedFields fields := by
    cases fields <;> simp [selectedFields, defaultFailureFields]
  have hk : ∀ x ∈ selectedFields fields, KnownField x := by
    intro x hx
    unfold selectedFields at hx
    split at hx
    · simp [KnownField, fieldFilename, fieldLine, fieldColumn, fieldMessage] at hx ⊢
      rcases hx with h | h | h | h <;> simp [h]
    · exact h x hx
  unfold fprintln
  rw [e, fprintGo_known f _ hk]
  show (_, _) = (_, _)
  by_cases hs : shown = []
  · have : shownTexts f (selectedFields fields) = [] := hs
    simp [hs, this]
  · have : shownTexts f (selectedFields fields) ≠ [] := hs
    simp only [this, hs, if_false, ne_eq, not_false_eq_true, or_true, if_true, true_and,
      List.nil_append]
    rfl

/-- C17: when the last selected field is not empty, the line is exactly the non-empty
selected fields joined by colons, and a newline. (Missing from the full property: the
case of an empty last field, refuted below.) -/
theorem C17_line_joined_partial (f : Failure) (fields : List FailureField)
    (h : ∀ x ∈ fields, KnownField x)
    (hlast : ∀ x, (selectedFields fields).getLast? = some x → shownField f x ≠ []) :
    fprintln f fields = (join s%":" (shownTexts f (selectedFields fields)) ++ s%"\n", true) := by
  rw [C17_line_shape f fields h]
  have hne : shownTexts f (selectedFields fields) ≠ [] := by
    intro e
    cases hl : (selectedFields fields).getLast? with
    | none =>
      rw [List.getLast?_eq_none_iff] at hl
      unfold selectedFields at hl
      split at hl <;> simp_all
    | some x =>
      have : shownField f x ∈ shownTexts f (selectedFields fields) := by
        simp only [shownTexts, List.mem_filter, decide_eq_true_eq]
        exact ⟨List.mem_map.mpr ⟨x, List.mem_of_getLast? hl, rfl⟩, hlast x hl⟩
      rw [e] at this
      cases this
  have hn : ¬ ∃ x, (selectedFields fields).getLast? = some x ∧ shownField f x = [] := by
    rintro ⟨x, hx, h0⟩; exact hlast x hx h0
  simp [hne, hn]

/-- C17, refuted for an empty last field: the line of a failure without message ends
in a dangling colon. -/
theorem C17_dangling_colon :
    ¬ ∀ f fields, (∀ x ∈ fields, KnownField x) →
      fprintln f fields = (join s%":" (shownTexts f (selectedFields fields)) ++ s%"\n", true) := by
  intro h
  have := h ⟨s%"a.proto", 3, 4, [], []⟩ [] (by simp)
  revert this; decide

/-- C17: an unknown field is an error. -/
theorem C17_unknown_field (f : Failure) (fields : List FailureField) (x : FailureField)
    (hx : x ∈ fields) (h : ¬ KnownField x) : (fprintln f fields).2 = false := by
  unfold fprintln
  apply fprintGo_unknown f _ x _ h
  split
  · rename_i h0
    rw [List.length_eq_zero_iff] at h0
    subst h0; cases hx
  · exact hx

/-- C17: no line or column is shown as 0, and no file name as the empty string. -/
theorem C17_never_zero (f : Failure) :
    shownField f fieldLine ≠ s%"0" ∧ shownField f fieldColumn ≠ s%"0" ∧
    shownField f fieldFilename ≠ [] := by
  refine ⟨?_, ?_, ?_⟩
  · simp only [shownField, shownPosition]
    by_cases h : f.line = 0 <;> simp [h, itoa_eq_zero, fieldLine, fieldFilename]
  · simp only [shownField, shownPosition]
    by_cases h : f.column = 0 <;>
      simp [h, itoa_eq_zero, fieldColumn, fieldLine, fieldFilename]
  · by_cases h : f.filename = [] <;> simp [shownField, h]

/-- C17: parsing the printed name of a known field, in any letter case, gives the
field back. -/
theorem C17_parse_field (x : FailureField) (h : KnownField x) (s : Str)
    (hs : toLower s = fieldString x) : parseFailureField s = some x := by
  unfold parseFailureField
  rw [hs]
  rcases h with rfl | rfl | rfl | rfl | rfl <;> decide

/-- C17: a string parses to a field only if it is, up to letter case, the name of that
known field. -/
theorem C17_parse_field_only (x : FailureField) (s : Str) (h : parseFailureField s = some x) :
    KnownField x ∧ toLower s = fieldString x := by
  unfold parseFailureField stringToFailureField at h
  simp only [List.lookup] at h
  split at h
  · rename_i e
    injection h with h; subst h
    exact ⟨Or.inl rfl, by rw [beq_iff_eq.mp e]; decide⟩
  · split at h
    · rename_i e
      injection h with h; subst h
      exact ⟨by simp [KnownField], by rw [beq_iff_eq.mp e]; decide⟩
    · split at h
      · rename_i e
        injection h with h; subst h
        exact ⟨by simp [KnownField], by rw [beq_iff_eq.mp e]; decide⟩
      · split at h
        · rename_i e
          injection h with h; subst h
          exact ⟨by simp [KnownField], by rw [beq_iff_eq.mp e]; decide⟩
        · split at h
          · rename_i e
            injection h with h; subst h
            exact ⟨by simp [KnownField], by rw [beq_iff_eq.mp e]; decide⟩
          · cases h

theorem fieldString_no_colon {x : FailureField} (h : KnownField x) : ':' ∉ fieldString x := by
  rcases h with rfl | rfl | rfl | rfl | rfl <;> decide

theorem fieldString_lower {x : FailureField} (h : KnownField x) :
    toLower (fieldString x) = fieldString x := by
  rcases h with rfl | rfl | rfl | rfl | rfl <;> decide

/-- C17: a colon separated list of field names parses to these fields. -/
theorem C17_parse_fields (fields : List FailureField) (hne : fields ≠ [])
    (h : ∀ x ∈ fields, KnownField x) :
    parseColonSeparatedFailureFields (join s%":" (fields.map fieldString)) = some fields := by
  have hl : (fields.map fieldString) ≠ [] := by simpa using hne
  have hsplit : splitChar ':' (join s%":" (fields.map fieldString)) = fields.map fieldString := by
    apply splitChar_join ':' hl
    intro w hw
    obtain ⟨x, hx, rfl⟩ := List.mem_map.mp hw
    exact fieldString_no_colon (h x hx)
  have hnil : join s%":" (fields.map fieldString) ≠ [] := by
    intro e
    rw [e] at hsplit
    cases fields with
    | nil => exact hne rfl
    | cons x xs =>
      simp [splitChar] at hsplit
      have hx := h x (List.mem_cons_self ..)
      have := hsplit.1
      rcases hx with rfl | rfl | rfl | rfl | rfl <;> revert this <;> decide
  unfold parseColonSeparatedFailureFields
  rw [if_neg (by simpa using hnil), hsplit]
  clear hsplit hnil hl hne
  induction fields with
  | nil => rfl
  | cons x xs ih =>
    have hx := h x (List.mem_cons_self ..)
    rw [List.map_cons, List.mapM_cons, C17_parse_field x hx _ (fieldString_lower hx),
      ih (fun y hy => h y (List.mem_cons_of_mem _ hy))]
    rfl

example : fprintln ⟨s%"a.proto", 0, 7, s%"ID", s%"bad: thing"⟩ [] =
    (s%"a.proto:1:7:bad: thing\n", true) := by decide
example : fprintln ⟨[], 12, 7, s%"ID", s%"msg"⟩ [fieldID, fieldFilename, fieldLine] =
    (s%"ID:<input>:12\n", true) := by decide
example : parseColonSeparatedFailureFields (s%"Filename:ID") = some [fieldFilename, fieldID] := by
  decide

/-! ## C18 -/

/-- C18: sorting returns a permutation of the failures, in order. -/
theorem C18_sorted (l : List Failure) : (sortFailures l).Perm l ∧ InOrder (sortFailures l) := by
  refine ⟨sortBy_perm _, ?_⟩
  have h := sortBy_less_sorted swo_lessFailure l
  apply h.imp
  intro f g hfg
  simp at hfg
  cases hl : lessFailure f g with
  | true => exact Or.inl (lessFailure_iff.mp hl)
  | false => exact Or.inr (lessFailure_anti hl hfg)

/-- C18: permutations of each other sort to the same list, hence print identically. -/
theorem C18_canonical (l l' : List Failure) (h : l.Perm l') : sortFailures l = sortFailures l' :=
  sortBy_less_eq_of_perm swo_lessFailure (fun _ _ _ _ h1 h2 => lessFailure_anti h1 h2) h

/-- C18: the sorted list is the only permutation that is in order. -/
theorem C18_unique (l l' : List Failure) (hp : l'.Perm l) (ho : InOrder l') :
    l' = sortFailures l := by
  rw [← C18_canonical l' l hp]
  symm
  apply sortBy_of_sorted
  apply ho.imp
  intro f g h
  rcases h with h | rfl
  · have := swo_lessFailure.asymm f g (lessFailure_iff.mpr h)
    simp [this]
  · simp [swo_lessFailure.irrefl]

/-- C18 with nil entries: they come first, the others follow in order. -/
theorem C18_nil_first (l : List (Option Failure)) :
    sortFailuresNil l =
      (l.filter (·.isNone)) ++ (sortFailures (l.filterMap id)).map some := by
  have hs := sortBy_less_sorted swo_less l
  have hp : (sortBy (fun a b => !less b a) l).Perm
      ((l.filter (·.isNone)) ++ (sortFailures (l.filterMap id)).map some) := by
    refine (sortBy_perm l).trans ?_
    refine List.Perm.trans ?_
      (List.Perm.append_left _ ((sortBy_perm (le := fun a b => !lessFailure b a)
        (l.filterMap id)).symm.map some))
    clear hs
    induction l with
    | nil => simp
    | cons a as ih =>
      cases a with
      | none => simpa using ih
      | some f =>
        simp only [List.filter_cons, Option.isNone_some, Bool.false_eq_true, if_false,
          List.filterMap_cons, id, List.map_cons]
        refine (List.Perm.cons _ ih).trans ?_
        exact List.perm_middle.symm
  apply sorted_perm_eq (le := fun a b => !less b a) _ hs _ hp
  · intro a b _ _ h1 h2
    cases a <;> cases b <;> simp [less] at *
    exact lessFailure_anti h2 h1
  · apply List.pairwise_append.mpr
    refine ⟨?_, ?_, ?_⟩
    · apply List.pairwise_iff_forall_sublist.mpr
      intro a b hab
      have hb := (List.mem_filter.mp (hab.subset (by simp : b ∈ [a, b]))).2
      have ha := (List.mem_filter.mp (hab.subset (by simp : a ∈ [a, b]))).2
      cases a <;> cases b <;> simp [less] at *
    · rw [List.pairwise_map]
      exact sortBy_less_sorted swo_lessFailure _
    · intro a ha b hb
      have ha := (List.mem_filter.mp ha).2
      obtain ⟨g, _, rfl⟩ := List.mem_map.mp hb
      cases a <;> simp [less] at *

example : sortFailures [⟨s%"b", 1, 1, [], s%"m"⟩, ⟨s%"a", 10, 1, [], s%"m"⟩, ⟨s%"a", 9, 1, [], s%"m"⟩]
    = [⟨s%"a", 9, 1, [], s%"m"⟩, ⟨s%"a", 10, 1, [], s%"m"⟩, ⟨s%"b", 1, 1, [], s%"m"⟩] := by decide

end Verif.Props
