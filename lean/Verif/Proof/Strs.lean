import Verif.Model.Strs
import Verif.Proof.Sort

/-! # Lemmas on the string helpers -/

namespace Verif

namespace Str

/-! ## Character classes -/

theorem isUpper_iff {c : Char} : isUpper c = true ↔ 65 ≤ c.toNat ∧ c.toNat ≤ 90 := by
  simp [isUpper]
theorem isLower_iff {c : Char} : isLower c = true ↔ 97 ≤ c.toNat ∧ c.toNat ≤ 122 := by
  simp [isLower]
theorem isDigit_iff {c : Char} : isDigit c = true ↔ 48 ≤ c.toNat ∧ c.toNat ≤ 57 := by
  simp [isDigit]

theorem toNat_ofNat {n : Nat} (h : n < 0xd800) : (Char.ofNat n).toNat = n := by
  have hv : n.isValidChar := Or.inl h
  simp only [Char.ofNat, hv, dif_pos, Char.toNat, Char.ofNatAux]
  exact UInt32.toNat_ofNatLT ..

theorem lowerChar_toNat (c : Char) :
    (lowerChar c).toNat = if isUpper c then c.toNat + 32 else c.toNat := by
  unfold lowerChar
  split
  · rename_i h
    have := isUpper_iff.mp h
    exact toNat_ofNat (by omega)
  · rfl

theorem upperChar_toNat (c : Char) :
    (upperChar c).toNat = if isLower c then c.toNat - 32 else c.toNat := by
  unfold upperChar
  split
  · rename_i h
    have := isLower_iff.mp h
    exact toNat_ofNat (by omega)
  · rfl

theorem not_isUpper_lowerChar (c : Char) : isUpper (lowerChar c) = false := by
  rw [Bool.eq_false_iff]
  intro h
  rw [isUpper_iff, lowerChar_toNat] at h
  split at h
  · rename_i hu; have := isUpper_iff.mp hu; omega
  · rename_i hu; exact hu (isUpper_iff.mpr h)

theorem not_isLower_upperChar (c : Char) : isLower (upperChar c) = false := by
  rw [Bool.eq_false_iff]
  intro h
  rw [isLower_iff, upperChar_toNat] at h
  split at h
  · rename_i hu; have := isLower_iff.mp hu; omega
  · rename_i hu; exact hu (isLower_iff.mpr h)

theorem lowerChar_of_not_upper {c : Char} (h : isUpper c = false) : lowerChar c = c := by
  simp [lowerChar, h]

theorem upperChar_of_not_lower {c : Char} (h : isLower c = false) : upperChar c = c := by
  simp [upperChar, h]

theorem lowerChar_idem (c : Char) : lowerChar (lowerChar c) = lowerChar c :=
  lowerChar_of_not_upper (not_isUpper_lowerChar c)

theorem upperChar_idem (c : Char) : upperChar (upperChar c) = upperChar c :=
  upperChar_of_not_lower (not_isLower_upperChar c)

theorem toLower_idem (s : Str) : toLower (toLower s) = toLower s := by
  simp [toLower, lowerChar_idem]

theorem toUpper_idem (s : Str) : toUpper (toUpper s) = toUpper s := by
  simp [toUpper, upperChar_idem]

theorem isUpper_not_lower {c : Char} (h : isUpper c = true) : isLower c = false := by
  rw [Bool.eq_false_iff]; intro h'
  rw [isUpper_iff] at h; rw [isLower_iff] at h'; omega

theorem isLower_not_upper {c : Char} (h : isLower c = true) : isUpper c = false := by
  rw [Bool.eq_false_iff]; intro h'
  rw [isLower_iff] at h; rw [isUpper_iff] at h'; omega

theorem isDigit_not_upper {c : Char} (h : isDigit c = true) : isUpper c = false := by
  rw [Bool.eq_false_iff]; intro h'
  rw [isDigit_iff] at h; rw [isUpper_iff] at h'; omega

theorem isDigit_not_lower {c : Char} (h : isDigit c = true) : isLower c = false := by
  rw [Bool.eq_false_iff]; intro h'
  rw [isDigit_iff] at h; rw [isLower_iff] at h'; omega

theorem upperChar_lowerChar_of_upper {c : Char} (h : isUpper c = true) :
    upperChar (lowerChar c) = c := by
  apply char_toNat_inj
  have hu := isUpper_iff.mp h
  have hl : isLower (lowerChar c) = true := by
    rw [isLower_iff, lowerChar_toNat, h]; simp; omega
  rw [upperChar_toNat, hl, lowerChar_toNat, h]; simp

theorem isLower_lowerChar_of_upper {c : Char} (h : isUpper c = true) :
    isLower (lowerChar c) = true := by
  rw [isLower_iff, lowerChar_toNat, h]
  have hu := isUpper_iff.mp h
  simp; omega

theorem isUpper_upperChar_of_lower {c : Char} (h : isLower c = true) :
    isUpper (upperChar c) = true := by
  rw [isUpper_iff, upperChar_toNat, h]
  have hu := isLower_iff.mp h
  simp; omega

theorem not_isSpace_of_alnum {c : Char} (h : isLetter c = true ∨ isDigit c = true) :
    isSpace c = false := by
  simp only [isLetter, Bool.or_eq_true, isUpper_iff, isLower_iff, isDigit_iff] at h
  rw [Bool.eq_false_iff]
  intro h'
  simp only [isSpace, Bool.or_eq_true, Bool.and_eq_true, decide_eq_true_eq, beq_iff_eq] at h'
  omega

theorem isSpace_iff {c : Char} : isSpace c = true ↔
    (9 ≤ c.toNat ∧ c.toNat ≤ 13) ∨ c.toNat = 32 ∨ c.toNat = 0x85 ∨ c.toNat = 0xA0 ∨
    c.toNat = 0x1680 ∨ (0x2000 ≤ c.toNat ∧ c.toNat ≤ 0x200a) ∨ c.toNat = 0x2028 ∨
    c.toNat = 0x2029 ∨ c.toNat = 0x202f ∨ c.toNat = 0x205f ∨ c.toNat = 0x3000 := by
  simp only [isSpace, Bool.or_eq_true, Bool.and_eq_true, decide_eq_true_eq, beq_iff_eq]
  constructor <;> intro h <;> omega

theorem isSpace_lowerChar (c : Char) : isSpace (lowerChar c) = isSpace c := by
  unfold lowerChar
  split
  · rename_i h
    rw [not_isSpace_of_alnum (c := c) (Or.inl (by simp [isLetter, h]))]
    have hl := isLower_lowerChar_of_upper h
    simp only [lowerChar, h, if_true] at hl
    exact not_isSpace_of_alnum (Or.inl (by simp [isLetter, hl]))
  · rfl

theorem isSpace_upperChar (c : Char) : isSpace (upperChar c) = isSpace c := by
  unfold upperChar
  split
  · rename_i h
    rw [not_isSpace_of_alnum (c := c) (Or.inl (by simp [isLetter, h]))]
    have hl := isUpper_upperChar_of_lower h
    simp only [upperChar, h, if_true] at hl
    exact not_isSpace_of_alnum (Or.inl (by simp [isLetter, hl]))
  · rfl

/-! ## Trimming -/

theorem dropWhile_eq_self {f : Char → Bool} {s : Str} (h : ∀ c, s.head? = some c → f c = false) :
    s.dropWhile f = s := by
  cases s with
  | nil => rfl
  | cons c cs => simp [List.dropWhile, h c rfl]

theorem head?_dropWhile {f : Char → Bool} {s : Str} {c : Char}
    (h : (s.dropWhile f).head? = some c) : f c = false := by
  induction s with
  | nil => simp at h
  | cons x xs ih =>
    simp only [List.dropWhile] at h
    split at h
    · exact ih h
    · rename_i hx
      simp at h
      subst h
      simpa using hx

theorem trimRightBy_eq_self {f : Char → Bool} {s : Str}
    (h : ∀ c, s.getLast? = some c → f c = false) : trimRightBy f s = s := by
  unfold trimRightBy
  rw [dropWhile_eq_self, List.reverse_reverse]
  intro c hc
  exact h c (by rwa [List.head?_reverse] at hc)

/-- A string that neither begins nor ends with white space. -/
def Trimmed (s : Str) : Prop :=
  (∀ c, s.head? = some c → isSpace c = false) ∧ (∀ c, s.getLast? = some c → isSpace c = false)

theorem trimSpace_eq_self {s : Str} (h : Trimmed s) : trimSpace s = s := by
  unfold trimSpace trimLeftBy
  rw [dropWhile_eq_self h.1]
  exact trimRightBy_eq_self h.2

theorem getLast?_trimRightBy {f : Char → Bool} {s : Str} {c : Char}
    (h : (trimRightBy f s).getLast? = some c) : f c = false := by
  unfold trimRightBy at h
  rw [List.getLast?_reverse] at h
  exact head?_dropWhile h

theorem trimRightBy_prefix (f : Char → Bool) (s : Str) : trimRightBy f s <+: s := by
  unfold trimRightBy
  have h := List.dropWhile_suffix (l := s.reverse) f
  obtain ⟨t, ht⟩ := h
  refine ⟨t.reverse, ?_⟩
  have := congrArg List.reverse ht
  simpa using this

theorem head?_of_prefix {a b : Str} {c : Char} (h : a <+: b) (hc : a.head? = some c) :
    b.head? = some c := by
  obtain ⟨t, rfl⟩ := h
  cases a with
  | nil => simp at hc
  | cons x xs => simpa using hc

theorem trimmed_trimSpace (s : Str) : Trimmed (trimSpace s) := by
  refine ⟨fun c hc => ?_, fun c hc => getLast?_trimRightBy hc⟩
  have := head?_of_prefix (trimRightBy_prefix _ _) hc
  exact head?_dropWhile this

theorem trimSpace_idem (s : Str) : trimSpace (trimSpace s) = trimSpace s :=
  trimSpace_eq_self (trimmed_trimSpace s)

theorem trimmed_of_all {s : Str} (h : ∀ c ∈ s, isSpace c = false) : Trimmed s :=
  ⟨fun c hc => h c (List.mem_of_mem_head? hc), fun c hc => h c (List.mem_of_getLast? hc)⟩

theorem trimmed_map {f : Char → Char} (hf : ∀ c, isSpace (f c) = isSpace c) {s : Str}
    (h : Trimmed s) : Trimmed (s.map f) := by
  constructor
  · intro c hc
    rw [List.head?_map] at hc
    cases hs : s.head? with
    | none => simp [hs] at hc
    | some x => simp [hs] at hc; subst hc; rw [hf]; exact h.1 x hs
  · intro c hc
    rw [List.getLast?_map] at hc
    cases hs : s.getLast? with
    | none => simp [hs] at hc
    | some x => simp [hs] at hc; subst hc; rw [hf]; exact h.2 x hs

end Str

namespace Strs

open Str

/-! ## toSnake -/

theorem toSnakeGo_ne_nil {p : Option Char} {c : Char} {s : Str} : toSnakeGo p (c :: s) ≠ [] := by
  simp only [toSnakeGo]
  split <;> simp

theorem filter_toSnakeGo (p : Option Char) (s : Str) :
    (toSnakeGo p s).filter (· ≠ '_') = s.filter (· ≠ '_') := by
  induction s generalizing p with
  | nil => rfl
  | cons c cs ih =>
    simp only [toSnakeGo, List.filter_append, ih]
    by_cases hc : c = '_'
    · subst hc; split <;> simp
    · split <;> simp [hc]

theorem toSnakeGo_no_upper (p : Option Char) {s : Str} (h : ∀ c ∈ s, isUpper c = false) :
    toSnakeGo p s = s := by
  induction s generalizing p with
  | nil => rfl
  | cons c cs ih =>
    have hc := h c (List.mem_cons_self ..)
    simp only [toSnakeGo, ih (some c) (fun x hx => h x (List.mem_cons_of_mem _ hx))]
    cases p <;> simp [underscoreBefore, hc]

theorem toSnakeGo_head? (s : Str) : (toSnakeGo none s).head? = s.head? := by
  cases s <;> simp [toSnakeGo, underscoreBefore]

theorem toSnakeGo_getLast? (p : Option Char) (s : Str) :
    (toSnakeGo p s).getLast? = s.getLast? := by
  induction s generalizing p with
  | nil => rfl
  | cons c cs ih =>
    simp only [toSnakeGo]
    rw [List.getLast?_append]
    cases cs with
    | nil => simp only [toSnakeGo]; split <;> simp
    | cons d ds =>
      rw [ih (some c)]
      simp [List.getLast?_cons]

theorem mem_toSnakeGo {p : Option Char} {s : Str} {c : Char} (h : c ∈ toSnakeGo p s) :
    c ∈ s ∨ c = '_' := by
  induction s generalizing p with
  | nil => simp [toSnakeGo] at h
  | cons d ds ih =>
    simp only [toSnakeGo, List.mem_append] at h
    rcases h with h | h
    · split at h
      · simp at h; rcases h with h | h
        · exact Or.inr h
        · exact Or.inl (by simp [h])
      · simp at h; exact Or.inl (by simp [h])
    · rcases ih h with h | h
      · exact Or.inl (by simp [h])
      · exact Or.inr h

theorem trimmed_toSnake (s : Str) : Trimmed (toSnake s) := by
  have h := trimmed_trimSpace s
  unfold toSnake
  constructor
  · intro c hc; rw [toSnakeGo_head?] at hc; exact h.1 c hc
  · intro c hc; rw [toSnakeGo_getLast?] at hc; exact h.2 c hc

theorem camel_alnum {s : Str} (h : isCamelCase s = true) :
    s ≠ [] ∧ ∀ c ∈ s, isLetter c = true ∨ isDigit c = true := by
  unfold isCamelCase at h
  split at h
  · simp at h
  · rename_i hne
    simp only [List.all_eq_true, Bool.or_eq_true] at h
    exact ⟨fun he => hne he, h⟩

theorem trimSpace_camel {s : Str} (h : isCamelCase s = true) : trimSpace s = s :=
  trimSpace_eq_self (trimmed_of_all fun c hc => not_isSpace_of_alnum ((camel_alnum h).2 c hc))

theorem alnum_ne_underscore {c : Char} (h : isLetter c = true ∨ isDigit c = true) : c ≠ '_' := by
  rintro rfl
  revert h; decide

/-! ## Sets -/

theorem uniqMap_foldl (f : Str → Str) (l : List Str) (m : List Str) (hm : m.Nodup) :
    (l.foldl (fun m e => if f e ≠ [] then setInsert m (f e) else m) m).Nodup ∧
    ∀ a, a ∈ l.foldl (fun m e => if f e ≠ [] then setInsert m (f e) else m) m ↔
      a ∈ m ∨ (a ≠ [] ∧ ∃ e ∈ l, f e = a) := by
  induction l generalizing m with
  | nil => simp [hm]
  | cons x xs ih =>
    simp only [List.foldl_cons]
    by_cases hx : f x = []
    · simp only [hx, ne_eq, not_true_eq_false, if_false]
      refine ⟨(ih m hm).1, fun a => ?_⟩
      rw [(ih m hm).2 a]
      constructor
      · rintro (h | ⟨h1, e, he, h2⟩)
        · exact Or.inl h
        · exact Or.inr ⟨h1, e, List.mem_cons_of_mem _ he, h2⟩
      · rintro (h | ⟨h1, e, he, h2⟩)
        · exact Or.inl h
        · rcases List.mem_cons.mp he with rfl | he
          · exact absurd (h2.symm.trans hx) h1
          · exact Or.inr ⟨h1, e, he, h2⟩
    · simp only [ne_eq, hx, not_false_eq_true, if_true]
      have := ih (setInsert m (f x)) (setInsert_nodup hm _)
      refine ⟨this.1, fun a => ?_⟩
      have hmem := this.2 a
      simp only [ne_eq] at hmem
      rw [hmem, mem_setInsert]
      constructor
      · rintro ((h | h) | ⟨h1, e, he, h2⟩)
        · exact Or.inl h
        · exact Or.inr ⟨h ▸ hx, x, List.mem_cons_self .., h.symm⟩
        · exact Or.inr ⟨h1, e, List.mem_cons_of_mem _ he, h2⟩
      · rintro (h | ⟨h1, e, he, h2⟩)
        · exact Or.inl (Or.inl h)
        · rcases List.mem_cons.mp he with rfl | he
          · exact Or.inl (Or.inr h2.symm)
          · exact Or.inr ⟨h1, e, he, h2⟩

theorem uniqMap_nodup (f : Option (Str → Str)) (l : List Str) : (uniqMap f l).Nodup := by
  unfold uniqMap
  cases f with
  | none => exact (uniqMap_foldl id l [] List.nodup_nil).1
  | some f => exact (uniqMap_foldl f l [] List.nodup_nil).1

theorem mem_uniqMap_none {l : List Str} {a : Str} : a ∈ uniqMap none l ↔ a ∈ l ∧ a ≠ [] := by
  have := (uniqMap_foldl id l [] List.nodup_nil).2 a
  unfold uniqMap
  simp only [id] at this
  simp only [this, List.not_mem_nil, false_or]
  constructor
  · rintro ⟨h, e, he, rfl⟩; exact ⟨he, h⟩
  · rintro ⟨h, h'⟩; exact ⟨h', a, h, rfl⟩

theorem mem_uniqMap_some {f : Str → Str} {l : List Str} {a : Str} :
    a ∈ uniqMap (some f) l ↔ a ≠ [] ∧ ∃ e ∈ l, f e = a := by
  have := (uniqMap_foldl f l [] List.nodup_nil).2 a
  unfold uniqMap
  simpa using this

theorem foldl_filter_mem (p : Str → Prop) [DecidablePred p] (l m : List Str) (a : Str) :
    a ∈ l.foldl (fun m key => if p key then m else m.filter (· ≠ key)) m ↔
      a ∈ m ∧ (a ∈ l → p a) := by
  induction l generalizing m with
  | nil => simp
  | cons x xs ih =>
    simp only [List.foldl_cons, ih]
    by_cases hx : p x
    · simp only [hx, if_true, List.mem_cons]
      constructor
      · rintro ⟨h1, h2⟩
        exact ⟨h1, fun h => h.elim (fun e => e ▸ hx) h2⟩
      · rintro ⟨h1, h2⟩
        exact ⟨h1, fun h => h2 (Or.inr h)⟩
    · simp only [hx, if_false, List.mem_filter, List.mem_cons, decide_eq_true_eq]
      constructor
      · rintro ⟨⟨h1, h3⟩, h2⟩
        exact ⟨h1, fun h => h.elim (fun e => absurd e h3) h2⟩
      · rintro ⟨h1, h2⟩
        refine ⟨⟨h1, fun e => hx (e ▸ h2 (Or.inl e))⟩, fun h => h2 (Or.inr h)⟩

theorem foldl_filter_nodup (p : Str → Prop) [DecidablePred p] (l m : List Str) (h : m.Nodup) :
    (l.foldl (fun m key => if p key then m else m.filter (· ≠ key)) m).Nodup := by
  induction l generalizing m with
  | nil => exact h
  | cons x xs ih =>
    simp only [List.foldl_cons]
    split
    · exact ih m h
    · exact ih _ (h.filter _)

/-! ## Splitting snake case words -/

/-- Invariant of the `SplitSnakeCaseWord` loop. -/
theorem splitStep_flatten (s : Str) (st : SplitState) :
    (s.foldl splitStep st).words.flatten ++ (s.foldl splitStep st).cur =
      st.words.flatten ++ st.cur ++ s.filter (· ≠ '_') := by
  induction s generalizing st with
  | nil => simp
  | cons c cs ih =>
    simp only [List.foldl_cons]
    rw [ih]
    unfold splitStep
    by_cases hc : c = '_'
    · simp [hc]
    · by_cases hp : st.prev = '_'
      · by_cases hcur : st.cur = [] <;> simp [hc, hp, hcur]
      · simp [hc, hp]

theorem splitStep_words_ok (s : Str) (st : SplitState)
    (h : ∀ w ∈ st.words, w ≠ [] ∧ '_' ∉ w) (hc : '_' ∉ st.cur) :
    (∀ w ∈ (s.foldl splitStep st).words, w ≠ [] ∧ '_' ∉ w) ∧
      '_' ∉ (s.foldl splitStep st).cur := by
  induction s generalizing st with
  | nil => exact ⟨h, hc⟩
  | cons c cs ih =>
    simp only [List.foldl_cons]
    apply ih
    · unfold splitStep
      split
      · split
        · simp only
          split
          · rename_i hcur
            intro w hw
            rcases List.mem_append.mp hw with hw | hw
            · exact h w hw
            · simp at hw; subst hw; exact ⟨hcur, hc⟩
          · exact h
        · exact h
      · exact h
    · unfold splitStep
      split
      · rename_i hcc
        split
        · simpa using fun e => hcc e.symm
        · simp only [List.mem_append, not_or]
          exact ⟨hc, by simpa using fun e => hcc e.symm⟩
      · exact hc

end Strs

end Verif
