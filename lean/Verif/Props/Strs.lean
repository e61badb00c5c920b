import Verif.Proof.StrsWords

/-!
# C14, C15, C16: string helpers
-/

namespace Verif.Props

open Verif Str Strs Spec

/-! ## C14 -/

/-- C14: `SortUniq` returns, for every map iteration order, a strictly increasing
list with exactly the non-empty elements of the input. -/
theorem C14_sortUniq (o : Order) (l : List Str) :
    StrictlyIncreasing (sortUniqModifyOrd o l none) ∧
    ∀ a, a ∈ sortUniqModifyOrd o l none ↔ a ∈ l ∧ a ≠ [] := by
  have hp : (sortStrs (o.ord [] (uniqMap none l))).Perm (uniqMap none l) :=
    (sortStrs_perm _).trans (o.perm _ _)
  refine ⟨sortStrs_strict ((o.perm _ _).nodup_iff.mpr (uniqMap_nodup none l)), fun a => ?_⟩
  show a ∈ sortStrs (o.ord [] (uniqMap none l)) ↔ _
  rw [hp.mem_iff, mem_uniqMap_none]

/-- C14: `SortUniqModify` does the same for the images of the elements. -/
theorem C14_sortUniqModify (o : Order) (l : List Str) (f : Str → Str) :
    StrictlyIncreasing (sortUniqModifyOrd o l (some f)) ∧
    ∀ a, a ∈ sortUniqModifyOrd o l (some f) ↔ a ≠ [] ∧ ∃ e ∈ l, f e = a := by
  have hp : (sortStrs (o.ord [] (uniqMap (some f) l))).Perm (uniqMap (some f) l) :=
    (sortStrs_perm _).trans (o.perm _ _)
  refine ⟨sortStrs_strict ((o.perm _ _).nodup_iff.mpr (uniqMap_nodup (some f) l)), fun a => ?_⟩
  show a ∈ sortStrs (o.ord [] (uniqMap (some f) l)) ↔ _
  rw [hp.mem_iff, mem_uniqMap_some]

/-- C14: `Intersection` returns exactly the common non-empty elements, strictly
increasing, for every map iteration order. -/
theorem C14_intersection (o : Order) (one two : List Str) :
    StrictlyIncreasing (intersectionOrd o one two) ∧
    ∀ a, a ∈ intersectionOrd o one two ↔ a ∈ one ∧ a ∈ two ∧ a ≠ [] := by
  unfold intersectionOrd
  simp only
  refine ⟨sortStrs_strict ((o.perm _ _).nodup_iff.mpr
    (foldl_filter_nodup (· ∈ uniqMap none two) _ _ (uniqMap_nodup none one))), fun a => ?_⟩
  rw [mem_sortStrs, (o.perm _ _).mem_iff, foldl_filter_mem (· ∈ uniqMap none two),
    (o.perm _ _).mem_iff, mem_uniqMap_none, mem_uniqMap_none]
  constructor
  · rintro ⟨h1, h2⟩; exact ⟨h1.1, (h2 h1).1, h1.2⟩
  · rintro ⟨h1, h2, h3⟩; exact ⟨⟨h1, h3⟩, fun _ => ⟨h2, h3⟩⟩

/-- C14: the results depend only on the set of elements, so neither on the order
of the arguments nor on the map iteration order. -/
theorem C14_order_independent (o o' : Order) (l l' : List Str) (f : Str → Str)
    (h : ∀ a, a ∈ l ↔ a ∈ l') :
    sortUniqModifyOrd o l none = sortUniqModifyOrd o' l' none ∧
    sortUniqModifyOrd o l (some f) = sortUniqModifyOrd o' l' (some f) ∧
    ∀ k, intersectionOrd o l k = intersectionOrd o' l' k ∧
      intersectionOrd o k l = intersectionOrd o' l' k := by
  refine ⟨?_, ?_, fun k => ⟨?_, ?_⟩⟩
  · apply strictSorted_ext (C14_sortUniq ..).1 (C14_sortUniq ..).1
    intro a; rw [(C14_sortUniq ..).2, (C14_sortUniq ..).2, h]
  · apply strictSorted_ext (C14_sortUniqModify ..).1 (C14_sortUniqModify ..).1
    intro a; rw [(C14_sortUniqModify ..).2, (C14_sortUniqModify ..).2]
    simp only [h]
  · apply strictSorted_ext (C14_intersection ..).1 (C14_intersection ..).1
    intro a; rw [(C14_intersection ..).2, (C14_intersection ..).2, h]
  · apply strictSorted_ext (C14_intersection ..).1 (C14_intersection ..).1
    intro a; rw [(C14_intersection ..).2, (C14_intersection ..).2, h]
    constructor
    · rintro ⟨h1, h2, h3⟩; exact ⟨h2, h1, h3⟩
    · rintro ⟨h1, h2, h3⟩; exact ⟨h2, h1, h3⟩

/-- C14 on a concrete input, with two different iteration orders. -/
example : sortUniqModifyOrd Order.rev [s%"b", s%"", s%"a", s%"b"] none = [s%"a", s%"b"] ∧
    intersectionOrd Order.rev [s%"c", s%"b", s%"a"] [s%"a", s%"c", s%"d", s%""] = [s%"a", s%"c"] := by
  decide

/-! ## C15 -/

/-- C15: for a CamelCase identifier the snake conversions are accepted by the
corresponding predicates. -/
theorem C15_wellformed (s : Str) (h : isCamelCase s = true) :
    isLowerSnakeCase (toLowerSnakeCase s) = true ∧
    isUpperSnakeCase (toUpperSnakeCase s) = true := by
  obtain ⟨hne, hal⟩ := camel_alnum h
  have hs : toSnake s = toSnakeGo none s := by unfold toSnake; rw [trimSpace_camel h]
  have hne' : toSnake s ≠ [] := by
    rw [hs]; cases s with
    | nil => exact absurd rfl hne
    | cons c cs => exact toSnakeGo_ne_nil
  have hmem : ∀ c ∈ toSnake s, (isLetter c = true ∨ isDigit c = true) ∨ c = '_' := by
    intro c hc
    rw [hs] at hc
    rcases mem_toSnakeGo hc with h | h
    · exact Or.inl (hal c h)
    · exact Or.inr h
  have hhead : ∀ c, (toSnake s).head? = some c → isLetter c = true ∨ isDigit c = true := by
    intro c hc; rw [hs, toSnakeGo_head?] at hc; exact hal c (List.mem_of_mem_head? hc)
  have hlast : ∀ c, (toSnake s).getLast? = some c → isLetter c = true ∨ isDigit c = true := by
    intro c hc; rw [hs, toSnakeGo_getLast?] at hc; exact hal c (List.mem_of_getLast? hc)
  have key : ∀ (f : Char → Char) (P : Char → Bool),
      (∀ c, isLetter c = true ∨ isDigit c = true → P (f c) = true ∧ f c ≠ '_') → f '_' = '_' →
      (noOuterUnderscore ((toSnake s).map f) &&
        ((toSnake s).map f).all fun r => P r || r = '_') = true := by
    intro f P hf hu
    simp only [Bool.and_eq_true, noOuterUnderscore, decide_eq_true_eq, List.all_eq_true,
      Bool.or_eq_true, ne_eq, List.map_eq_nil_iff]
    refine ⟨⟨⟨hne', ?_⟩, ?_⟩, ?_⟩
    · intro hc
      rw [List.head?_map] at hc
      cases hx : (toSnake s).head? with
      | none => simp [hx] at hc
      | some x => simp [hx] at hc; exact (hf x (hhead x hx)).2 hc
    · intro hc
      rw [List.getLast?_map] at hc
      cases hx : (toSnake s).getLast? with
      | none => simp [hx] at hc
      | some x => simp [hx] at hc; exact (hf x (hlast x hx)).2 hc
    · intro c hc
      obtain ⟨x, hx, rfl⟩ := List.mem_map.mp hc
      rcases hmem x hx with h | h
      · exact Or.inl (hf x h).1
      · subst h; exact Or.inr hu
  constructor
  · refine key lowerChar (fun r => isLower r || isDigit r) (fun c hc => ?_) (by decide)
    have : isLower (lowerChar c) = true ∨ isDigit (lowerChar c) = true := by
      by_cases hu : isUpper c = true
      · exact Or.inl (isLower_lowerChar_of_upper hu)
      · rw [lowerChar_of_not_upper (by simpa using hu)]
        simpa [isLetter, hu] using hc
    exact ⟨by simpa using this, alnum_ne_underscore (this.imp_left fun h => by simp [isLetter, h])⟩
  · refine key upperChar (fun r => isUpper r || isDigit r) (fun c hc => ?_) (by decide)
    have : isUpper (upperChar c) = true ∨ isDigit (upperChar c) = true := by
      by_cases hu : isLower c = true
      · exact Or.inl (isUpper_upperChar_of_lower hu)
      · rw [upperChar_of_not_lower (by simpa using hu)]
        simpa [isLetter, hu] using hc
    exact ⟨by simpa using this, alnum_ne_underscore (this.imp_left fun h => by simp [isLetter, h])⟩

/-- C15: the snake conversions keep exactly the letters and digits of the input
up to case; only underscores are added. -/
theorem C15_keeps_letters (s : Str) (h : isCamelCase s = true) :
    (toLowerSnakeCase s).filter (· ≠ '_') = toLower s ∧
    (toUpperSnakeCase s).filter (· ≠ '_') = toUpper s := by
  obtain ⟨_, hal⟩ := camel_alnum h
  have hs : (toSnake s).filter (· ≠ '_') = s := by
    unfold toSnake
    rw [trimSpace_camel h, filter_toSnakeGo, List.filter_eq_self]
    intro c hc
    simpa using alnum_ne_underscore (hal c hc)
  have key : ∀ (f : Char → Char) (t : Str), (∀ c, f c = '_' ↔ c = '_') →
      (t.map f).filter (· ≠ '_') = (t.filter (· ≠ '_')).map f := by
    intro f t hf
    rw [List.filter_map]
    congr 1
    apply List.filter_congr
    intro c _
    simp [Function.comp, hf c]
  constructor
  · unfold toLowerSnakeCase
    conv => rhs; rw [← hs]
    apply key
    intro c
    constructor
    · intro hc
      by_cases hu : isUpper c = true
      · have := isLower_lowerChar_of_upper hu
        rw [hc] at this; exact absurd this (by decide)
      · rwa [lowerChar_of_not_upper (by simpa using hu)] at hc
    · rintro rfl; decide
  · unfold toUpperSnakeCase
    conv => rhs; rw [← hs]
    apply key
    intro c
    constructor
    · intro hc
      by_cases hu : isLower c = true
      · have := isUpper_upperChar_of_lower hu
        rw [hc] at this; exact absurd this (by decide)
      · rwa [upperChar_of_not_lower (by simpa using hu)] at hc
    · rintro rfl; decide

/-- C15: converting to lower snake case again changes nothing, for any string. The
property asks the same of upper snake case, which fails, see below. -/
theorem C15_idempotent_partial (s : Str) :
    toLowerSnakeCase (toLowerSnakeCase s) = toLowerSnakeCase s := by
  have ht : Trimmed (toLower (toSnake s)) := trimmed_map isSpace_lowerChar (trimmed_toSnake s)
  show toLower (toSnakeGo none (trimSpace (toLower (toSnake s)))) = toLower (toSnake s)
  rw [trimSpace_eq_self ht, toSnakeGo_no_upper, toLower_idem]
  intro c hc
  obtain ⟨x, _, rfl⟩ := List.mem_map.mp hc
  exact not_isUpper_lowerChar x

/-- C15, where the code disagrees with the natural expectation: upper snake case
conversion is not idempotent. `FooBar` becomes `FOO_BAR`, which becomes
`FO_O_BAR`. -/
theorem C15_upper_not_idempotent :
    ¬ ∀ s, isCamelCase s = true → toUpperSnakeCase (toUpperSnakeCase s) = toUpperSnakeCase s := by
  intro h
  have := h (s%"FooBar") (by decide)
  revert this; decide

/-- C15: converting a sequence of CamelCase words gives the lower-cased
(upper-cased) words joined by underscores, and the upper camel conversion undoes
the lower snake conversion. -/
theorem C15_words (ws : List Str) (h : ∀ w ∈ ws, CamelWord w) :
    toLowerSnakeCase ws.flatten = join ['_'] (ws.map toLower) ∧
    toUpperSnakeCase ws.flatten = join ['_'] (ws.map toUpper) ∧
    toUpperCamelCase (toLowerSnakeCase ws.flatten) = ws.flatten := by
  have h1 : toLowerSnakeCase ws.flatten = join ['_'] (ws.map toLower) := by
    unfold toLowerSnakeCase; rw [toSnake_words h, toLower_join]
  refine ⟨h1, ?_, ?_⟩
  · unfold toUpperSnakeCase; rw [toSnake_words h, toUpper_join]
  · have ht : trimSpace (toLowerSnakeCase ws.flatten) = toLowerSnakeCase ws.flatten :=
      trimSpace_eq_self (trimmed_map isSpace_lowerChar (trimmed_toSnake _))
    unfold toUpperCamelCase
    rw [ht, h1]
    cases ws with
    | nil => rfl
    | cons w ws =>
      rw [List.map_cons, join_underscore]
      obtain ⟨r, hr, he⟩ := toUpperCamelGo_word none (Or.inl rfl) (h w (List.mem_cons_self ..))
        ((ws.map toLower).flatMap ('_' :: ·))
      rw [he, toUpperCamelGo_words r hr (fun x hx => h x (List.mem_cons_of_mem _ hx))]
      simp

/-- C15: an underscore is put between two adjacent characters of a CamelCase identifier
exactly if a word starts at the second one. -/
theorem C15_boundaries (a : Str) (p c : Char) (b : Str) (h : isCamelCase (a ++ p :: c :: b) = true) :
    ∃ x y : Str, x.filter (· ≠ '_') = a ∧ y.filter (· ≠ '_') = b ∧
      ((WordStart p c b ∧ toLowerSnakeCase (a ++ p :: c :: b) = toLower (x ++ [p, '_', c] ++ y) ∧
          toUpperSnakeCase (a ++ p :: c :: b) = toUpper (x ++ [p, '_', c] ++ y)) ∨
        (¬ WordStart p c b ∧ toLowerSnakeCase (a ++ p :: c :: b) = toLower (x ++ [p, c] ++ y) ∧
          toUpperSnakeCase (a ++ p :: c :: b) = toUpper (x ++ [p, c] ++ y))) := by
  obtain ⟨_, hal⟩ := camel_alnum h
  have hfilter : ∀ t : Str, (∀ d ∈ t, d ∈ a ++ p :: c :: b) → t.filter (· ≠ '_') = t := by
    intro t ht
    rw [List.filter_eq_self]
    intro d hd
    simpa using alnum_ne_underscore (hal d (ht d hd))
  obtain ⟨x, hx, hxf⟩ := toSnakeGo_split none a p (c :: b)
  refine ⟨x, toSnakeGo (some c) b, ?_, ?_, ?_⟩
  · rw [hxf]; exact hfilter a fun d hd => by simp [hd]
  · rw [filter_toSnakeGo]; exact hfilter b fun d hd => by simp [hd]
  have hs : toSnake (a ++ p :: c :: b) = x ++ p :: toSnakeGo (some p) (c :: b) := by
    unfold toSnake; rw [trimSpace_camel h, hx]
  have hp : p ≠ '_' := alnum_ne_underscore (hal p (by simp))
  have hb : underscoreBefore (some p) c b = true ↔ WordStart p c b := by
    unfold underscoreBefore WordStart
    cases b with
    | nil => simp [hp]
    | cons n ns => simp [hp, and_assoc, or_comm]
  rw [toSnakeGo] at hs
  by_cases hw : WordStart p c b
  · rw [if_pos (hb.2 hw)] at hs
    refine Or.inl ⟨hw, ?_, ?_⟩
    · unfold toLowerSnakeCase; rw [hs]; simp
    · unfold toUpperSnakeCase; rw [hs]; simp
  · rw [if_neg (fun e => hw (hb.1 e))] at hs
    refine Or.inr ⟨hw, ?_, ?_⟩
    · unfold toLowerSnakeCase; rw [hs]; simp
    · unfold toUpperSnakeCase; rw [hs]; simp

example : WordStart 'o' 'B' s%"ar" ∧ WordStart 'P' 'S' s%"erver" ∧ ¬ WordStart 'A' 'P' s%"I" ∧
    ¬ WordStart 'P' 'I' [] := by
  refine ⟨⟨by decide, Or.inl (by decide)⟩, ⟨by decide, Or.inr ⟨'e', s%"rver", rfl, by decide⟩⟩, ?_, ?_⟩
  · rintro ⟨_, h | ⟨n, ns, h, hn⟩⟩
    · exact absurd h (by decide)
    · injection h with h _; subst h; exact absurd hn (by decide)
  · rintro ⟨_, h | ⟨n, ns, h, hn⟩⟩
    · exact absurd h (by decide)
    · cases h

example : isCamelCase (s%"FooBARBaz2") = true ∧
    toLowerSnakeCase (s%"FooBARBaz2") = s%"foo_bar_baz2" ∧
    toUpperSnakeCase (s%"FooBARBaz2") = s%"FOO_BAR_BAZ2" := by decide

example : ∃ ws : List Str, (∀ w ∈ ws, CamelWord w) ∧ ws.flatten = s%"FooB2Baz" := by
  refine ⟨[s%"Foo", s%"B2", s%"Baz"], ?_, by decide⟩
  intro w hw
  simp at hw
  rcases hw with rfl | rfl | rfl
  · exact ⟨'F', s%"oo", rfl, by decide, by decide, by decide⟩
  · exact ⟨'B', s%"2", rfl, by decide, by decide, by decide⟩
  · exact ⟨'B', s%"az", rfl, by decide, by decide, by decide⟩

/-! ## C16 -/

/-- C16: splitting a CamelCase word yields non-empty pieces without underscores
whose concatenation is the input. -/
theorem C16_split_lossless (s : Str) (h : isCamelCase s = true) :
    (splitCamelCaseWord s).flatten = s ∧
    ∀ w ∈ splitCamelCaseWord s, w ≠ [] ∧ '_' ∉ w := by
  obtain ⟨hne, hal⟩ := camel_alnum h
  have ht := trimSpace_camel h
  have hs : (toSnake s).filter (· ≠ '_') = s := by
    unfold toSnake
    rw [ht, filter_toSnakeGo, List.filter_eq_self]
    intro c hc
    simpa using alnum_ne_underscore (hal c hc)
  have hs' : toSnake s = toSnakeGo none s := by unfold toSnake; rw [ht]
  have hne' : toSnake s ≠ [] := fun e => hne (by rw [← hs, e]; rfl)
  have hsn : isSnake (toSnake s) = true := by
    simp only [isSnake, noOuterUnderscore, Bool.and_eq_true, decide_eq_true_eq, List.all_eq_true,
      Bool.or_eq_true, ne_eq]
    refine ⟨⟨⟨hne', fun hc => ?_⟩, fun hc => ?_⟩, fun c hc => ?_⟩
    · rw [hs', toSnakeGo_head?] at hc
      exact alnum_ne_underscore (hal _ (List.mem_of_mem_head? hc)) rfl
    · rw [hs', toSnakeGo_getLast?] at hc
      exact alnum_ne_underscore (hal _ (List.mem_of_getLast? hc)) rfl
    · rw [hs'] at hc
      rcases mem_toSnakeGo hc with h | h
      · exact Or.inl (hal c h)
      · exact Or.inr h
  unfold splitCamelCaseWord splitSnakeCaseWord
  simp only [hne, if_false, ht, h, Bool.not_true, hne', trimSpace_eq_self (trimmed_toSnake s), hsn,
    Bool.false_eq_true]
  have hf := splitStep_flatten (toSnake s) ⟨[], [], Char.ofNat 0⟩
  have hw := splitStep_words_ok (toSnake s) ⟨[], [], Char.ofNat 0⟩ (by simp) (by simp)
  rw [hs] at hf
  simp only [List.flatten_nil, List.nil_append] at hf
  generalize (toSnake s).foldl splitStep ⟨[], [], Char.ofNat 0⟩ = st at hf hw
  by_cases hcur : st.cur = []
  · simp only [hcur, List.append_nil] at hf
    simp only [hcur, ne_eq, not_true_eq_false, if_false]
    exact ⟨hf, hw.1⟩
  · simp only [ne_eq, hcur, not_false_eq_true, if_true]
    refine ⟨by simpa using hf, fun w hm => ?_⟩
    rcases List.mem_append.mp hm with hm | hm
    · exact hw.1 w hm
    · simp at hm; subst hm; exact ⟨hcur, hw.2⟩

/-- C16: a concatenation of CamelCase words is split into exactly these words. -/
theorem C16_split_words (ws : List Str) (hne : ws ≠ []) (h : ∀ w ∈ ws, CamelWord w) :
    splitCamelCaseWord ws.flatten = ws := by
  have hal : ∀ x ∈ ws.flatten, isLetter x = true ∨ isDigit x = true := by
    intro x hx
    obtain ⟨w, hw, hxw⟩ := List.mem_flatten.mp hx
    exact camelWord_alnum (h w hw) x hxw
  cases ws with
  | nil => exact absurd rfl hne
  | cons w ws =>
    have hw := h w (List.mem_cons_self ..)
    have hwne : w ≠ [] := by obtain ⟨c, t, rfl, _⟩ := hw.shape; simp
    have hfl : (w :: ws).flatten ≠ [] := by
      obtain ⟨c, t, rfl, _⟩ := hw.shape; simp
    have hcamel : isCamelCase (w :: ws).flatten = true := by
      unfold isCamelCase
      split
      · rename_i he; exact absurd he hfl
      · rw [List.all_eq_true]; exact fun x hx => by rw [Bool.or_eq_true]; exact hal x hx
    have hs := toSnake_words h
    have ht := trimmed_toSnake (w :: ws).flatten
    have hall : ∀ v ∈ ws, v ≠ [] ∧ '_' ∉ v := fun v hv => by
      have hv := h v (List.mem_cons_of_mem _ hv)
      exact ⟨by obtain ⟨c, t, rfl, _⟩ := hv.shape; simp, camelWord_no_underscore hv⟩
    have hsn : isSnake (toSnake (w :: ws).flatten) = true := by
      have hl := (C16_split_lossless _ hcamel).1
      unfold splitCamelCaseWord splitSnakeCaseWord at hl
      simp only [hfl, if_false, trimSpace_camel hcamel, hcamel, Bool.not_true,
        Bool.false_eq_true, trimSpace_eq_self ht] at hl
      by_cases hx : isSnake (toSnake (w :: ws).flatten) = true
      · exact hx
      · rw [Bool.not_eq_true] at hx
        simp only [hx, Bool.not_false, if_true, ite_self] at hl
        exact absurd hl.symm hfl
    have hne' : toSnake (w :: ws).flatten ≠ [] := by
      rw [hs, join_underscore]; simp [hwne]
    unfold splitCamelCaseWord splitSnakeCaseWord
    simp only [hfl, if_false, trimSpace_camel hcamel, hcamel, Bool.not_true, hne',
      trimSpace_eq_self ht, hsn, Bool.false_eq_true]
    rw [hs, join_underscore, List.foldl_append]
    obtain ⟨q, _, he⟩ := foldl_splitStep_word [] [] (Char.ofNat 0) (by decide) w
      (camelWord_no_underscore hw)
    rw [he]
    obtain ⟨st, h1, h2, h3⟩ := foldl_splitStep_words ws [] w hwne q hall
    simp only [List.nil_append] at h1 ⊢
    rw [h1, if_pos h2, h3]
    rfl

example : splitCamelCaseWord (s%"FooBARBaz2") = [s%"Foo", s%"BAR", s%"Baz2"] := by decide

end Verif.Props
