import Verif.Proof.Strs
import Verif.Go.Strconv

/-! # Lemmas on splitting and joining, prefixes and decimal numbers -/

namespace Verif.Str

theorem consHead_ne_nil (c : Char) (l : List Str) : consHead c l ≠ [] := by
  cases l <;> simp [consHead]

theorem splitChar_ne_nil (c : Char) (s : Str) : splitChar c s ≠ [] := by
  cases s with
  | nil => simp [splitChar]
  | cons x xs => unfold splitChar; split; simp; exact consHead_ne_nil _ _

theorem join_consHead (sep : Str) (c : Char) (l : List Str) :
    join sep (consHead c l) = c :: join sep l := by
  cases l with
  | nil => rfl
  | cons w ws => cases ws <;> simp [consHead, join]

theorem join_cons_nil (sep : Str) {l : List Str} (h : l ≠ []) :
    join sep ([] :: l) = sep ++ join sep l := by
  cases l with
  | nil => exact absurd rfl h
  | cons w ws => simp [join]

/-- Joining a split gives the string back. -/
theorem join_splitChar (c : Char) (s : Str) : join [c] (splitChar c s) = s := by
  induction s with
  | nil => rfl
  | cons x xs ih =>
    unfold splitChar
    split
    · rename_i h; rw [join_cons_nil _ (splitChar_ne_nil c xs), ih, h]; rfl
    · rw [join_consHead, ih]

theorem splitChar_no_sep {c : Char} {s w : Str} (h : w ∈ splitChar c s) : c ∉ w := by
  induction s generalizing w with
  | nil => simp [splitChar] at h; simp [h]
  | cons x xs ih =>
    unfold splitChar at h
    split at h
    · rcases List.mem_cons.mp h with rfl | h
      · simp
      · exact ih h
    · rename_i hx
      cases hs : splitChar c xs with
      | nil => exact absurd hs (splitChar_ne_nil c xs)
      | cons v vs =>
        rw [hs] at h
        rcases List.mem_cons.mp h with rfl | h
        · intro hm
          rcases List.mem_cons.mp hm with e | hm
          · exact hx e.symm
          · exact ih (by rw [hs]; exact List.mem_cons_self ..) hm
        · exact ih (by rw [hs]; exact List.mem_cons_of_mem _ h)

theorem splitChar_of_not_mem {c : Char} {s : Str} (h : c ∉ s) : splitChar c s = [s] := by
  induction s with
  | nil => rfl
  | cons x xs ih =>
    have hx : x ≠ c := fun e => h (by simp [e])
    unfold splitChar
    rw [if_neg hx, ih (fun hm => h (List.mem_cons_of_mem _ hm))]
    rfl

theorem splitChar_append (c : Char) {w : Str} (h : c ∉ w) (s : Str) :
    splitChar c (w ++ c :: s) = w :: splitChar c s := by
  induction w with
  | nil => simp [splitChar]
  | cons x xs ih =>
    have hx : x ≠ c := fun e => h (by simp [e])
    show splitChar c (x :: (xs ++ c :: s)) = _
    rw [splitChar, if_neg hx, ih (fun hm => h (List.mem_cons_of_mem _ hm))]
    rfl

/-- Splitting a join of separator-free words gives the words back. -/
theorem splitChar_join (c : Char) {l : List Str} (hne : l ≠ []) (h : ∀ w ∈ l, c ∉ w) :
    splitChar c (join [c] l) = l := by
  induction l with
  | nil => exact absurd rfl hne
  | cons w ws ih =>
    have hw := h w (List.mem_cons_self ..)
    cases ws with
    | nil => exact splitChar_of_not_mem hw
    | cons v vs =>
      show splitChar c (w ++ [c] ++ join [c] (v :: vs)) = _
      rw [List.append_assoc, List.singleton_append, splitChar_append c hw,
        ih (by simp) (fun x hx => h x (List.mem_cons_of_mem _ hx))]

/-- The last piece of a split at `c`, when there are at least two pieces. -/
theorem splitChar_append_last (c : Char) (p : Str) {w : Str} (h : c ∉ w) :
    splitChar c (p ++ c :: w) = splitChar c p ++ [w] := by
  induction p with
  | nil => simp [splitChar, splitChar_of_not_mem h]
  | cons x xs ih =>
    show splitChar c (x :: (xs ++ c :: w)) = splitChar c (x :: xs) ++ [w]
    rw [splitChar, splitChar, ih]
    split
    · rfl
    · cases hs : splitChar c xs with
      | nil => exact absurd hs (splitChar_ne_nil c xs)
      | cons v vs => rfl

theorem join_append_last (sep : Str) {l : List Str} (hne : l ≠ []) (w : Str) :
    join sep (l ++ [w]) = join sep l ++ sep ++ w := by
  induction l with
  | nil => exact absurd rfl hne
  | cons v vs ih =>
    cases vs with
    | nil => simp [join]
    | cons u us =>
      have := ih (by simp)
      show v ++ sep ++ join sep ((u :: us) ++ [w]) = (v ++ sep ++ join sep (u :: us)) ++ sep ++ w
      rw [this]; simp

/-! ## Splitting at a string -/

theorem splitGo_ne_nil (sep : Str) (k : Nat) (s : Str) : splitGo sep k s ≠ [] := by
  induction s generalizing k with
  | nil => simp [splitGo]
  | cons x xs ih =>
    cases k with
    | succ k => simp only [splitGo]; exact ih k
    | zero =>
      simp only [splitGo]
      split
      · simp
      · exact consHead_ne_nil _ _

theorem join_splitGo (sep : Str) (hsep : sep ≠ []) (k : Nat) (s : Str) (hk : k ≤ s.length) :
    join sep (splitGo sep k s) = s.drop k := by
  induction s generalizing k with
  | nil => simp [splitGo, join]
  | cons x xs ih =>
    cases k with
    | succ k =>
      simp only [splitGo, List.drop_succ_cons]
      exact ih k (by simpa using hk)
    | zero =>
      simp only [splitGo]
      split
      · rename_i hp
        rw [join_cons_nil _ (splitGo_ne_nil _ _ _)]
        have hpre : sep <+: x :: xs := List.isPrefixOf_iff_prefix.mp hp
        obtain ⟨t, ht⟩ := hpre
        cases sep with
        | nil => exact absurd rfl hsep
        | cons y ys =>
          simp only [List.cons_append, List.cons.injEq] at ht
          obtain ⟨rfl, ht⟩ := ht
          have hlen : ys.length ≤ xs.length := by rw [← ht]; simp
          have e := ih ys.length hlen
          simp only [List.length_cons, Nat.add_sub_cancel, List.drop_zero]
          rw [e, ← ht]
          simp
      · rw [join_consHead, ih 0 (Nat.zero_le _)]
        simp

/-- Joining a split gives the string back. -/
theorem join_splitStr {sep : Str} (hsep : sep ≠ []) (s : Str) : join sep (splitStr sep s) = s := by
  unfold splitStr
  rw [join_splitGo sep hsep 0 s (Nat.zero_le _)]
  rfl

theorem splitGo_skip (sep : Str) (a b : Str) : splitGo sep a.length (a ++ b) = splitGo sep 0 b := by
  induction a with
  | nil => rfl
  | cons x xs ih => simp only [List.length_cons, List.cons_append, splitGo]; exact ih

theorem splitGo_no_head {sep : Str} (hsep : sep ≠ []) {a : Str}
    (h : ∀ c, sep.head? = some c → c ∉ a) :
    splitGo sep 0 a = [a] ∧ ∀ b, splitGo sep 0 (a ++ sep ++ b) = a :: splitGo sep 0 b := by
  cases sep with
  | nil => exact absurd rfl hsep
  | cons y ys =>
    have hy := h y rfl
    clear h
    constructor
    · induction a with
      | nil => rfl
      | cons x xs ih =>
        have hx : ¬ (y = x) := fun e => hy (by simp [e])
        simp only [splitGo]
        rw [if_neg, ih (fun hm => hy (List.mem_cons_of_mem _ hm))]
        · rfl
        · simp [List.isPrefixOf, hx]
    · intro b
      induction a with
      | nil =>
        simp only [List.nil_append, List.cons_append, splitGo]
        rw [if_pos]
        · simp only [List.length_cons, Nat.add_sub_cancel, splitGo_skip]
        · rw [List.isPrefixOf_iff_prefix]; exact ⟨b, rfl⟩
      | cons x xs ih =>
        have hx : ¬ (y = x) := fun e => hy (by simp [e])
        simp only [List.cons_append, splitGo] at ih ⊢
        rw [if_neg, ih (fun hm => hy (List.mem_cons_of_mem _ hm))]
        · rfl
        · simp [List.isPrefixOf, hx]

/-! ## Prefixes and suffixes -/

theorem hasPrefix_iff {s p : Str} : hasPrefix s p = true ↔ ∃ t, s = p ++ t := by
  unfold hasPrefix
  rw [List.isPrefixOf_iff_prefix]
  constructor
  · rintro ⟨t, h⟩; exact ⟨t, h.symm⟩
  · rintro ⟨t, h⟩; exact ⟨t, h.symm⟩

theorem hasSuffix_iff {s p : Str} : hasSuffix s p = true ↔ ∃ t, s = t ++ p := by
  unfold hasSuffix
  rw [List.isSuffixOf_iff_suffix]
  constructor
  · rintro ⟨t, h⟩; exact ⟨t, h.symm⟩
  · rintro ⟨t, h⟩; exact ⟨t, h.symm⟩

theorem contains_iff {s p : Str} : contains s p = true ↔ ∃ a b, s = a ++ p ++ b := by
  induction s with
  | nil =>
    simp only [contains, List.isEmpty_iff]
    constructor
    · rintro rfl; exact ⟨[], [], rfl⟩
    · rintro ⟨a, b, h⟩
      have := h.symm
      simp at this
      exact this.2.1
  | cons c cs ih =>
    simp only [contains, Bool.or_eq_true, List.isPrefixOf_iff_prefix, ih]
    constructor
    · rintro (⟨t, h⟩ | ⟨a, b, h⟩)
      · exact ⟨[], t, by simpa using h.symm⟩
      · exact ⟨c :: a, b, by simp [h]⟩
    · rintro ⟨a, b, h⟩
      cases a with
      | nil => left; exact ⟨b, by simpa using h.symm⟩
      | cons x xs =>
        right
        simp only [List.cons_append, List.cons.injEq] at h
        exact ⟨xs, b, h.2⟩

/-! ## Decimal numbers -/

theorem digitChar_toNat {d : Nat} (h : d < 10) : (digitChar d).toNat = 48 + d :=
  toNat_ofNat (by omega)

theorem isDigit_digitChar {d : Nat} (h : d < 10) : isDigit (digitChar d) = true := by
  rw [isDigit_iff, digitChar_toNat h]; omega

theorem natDigits_append (fuel n : Nat) (acc : Str) :
    natDigits fuel n acc = natDigits fuel n [] ++ acc := by
  induction fuel generalizing n acc with
  | zero => rfl
  | succ f ih =>
    simp only [natDigits]
    split
    · rfl
    · rw [ih (n / 10) (digitChar (n % 10) :: acc), ih (n / 10) [digitChar (n % 10)]]; simp

theorem natDigits_spec (fuel n : Nat) (h : n < fuel) :
    natDigits fuel n [] ≠ [] ∧ (∀ c ∈ natDigits fuel n [], isDigit c = true) ∧
      decValue (natDigits fuel n []) = n := by
  induction fuel generalizing n with
  | zero => omega
  | succ f ih =>
    simp only [natDigits]
    split
    · rename_i h10
      refine ⟨by simp, fun c hc => ?_, ?_⟩
      · simp at hc; subst hc; exact isDigit_digitChar h10
      · simp [decValue, digitChar_toNat h10]
    · rename_i h10
      rw [natDigits_append]
      have hr := ih (n / 10) (by omega)
      have hm : n % 10 < 10 := Nat.mod_lt _ (by decide)
      refine ⟨by simp, fun c hc => ?_, ?_⟩
      · rcases List.mem_append.mp hc with hc | hc
        · exact hr.2.1 c hc
        · simp at hc; subst hc; exact isDigit_digitChar hm
      · have h3 := hr.2.2
        unfold decValue at h3 ⊢
        rw [List.foldl_append, h3]
        simp only [List.foldl_cons, List.foldl_nil, digitChar_toNat hm]
        omega

theorem natStr_ne_nil (n : Nat) : natStr n ≠ [] := (natDigits_spec (n + 1) n (by omega)).1

theorem natStr_digits (n : Nat) : ∀ c ∈ natStr n, isDigit c = true :=
  (natDigits_spec (n + 1) n (by omega)).2.1

theorem decValue_natStr (n : Nat) : decValue (natStr n) = n :=
  (natDigits_spec (n + 1) n (by omega)).2.2

theorem natStr_inj {a b : Nat} (h : natStr a = natStr b) : a = b := by
  rw [← decValue_natStr a, h, decValue_natStr]

theorem parseUint64_eq_some {s : Str} {v : Nat} :
    parseUint64 s = some v ↔ s ≠ [] ∧ (∀ c ∈ s, isDigit c = true) ∧ decValue s = v ∧ v < 2 ^ 64 := by
  unfold parseUint64
  by_cases h : (decide (s ≠ []) && s.all isDigit) = true
  · rw [if_pos h]
    simp only [Bool.and_eq_true, decide_eq_true_eq, List.all_eq_true] at h
    simp only
    split
    · rename_i hv
      constructor
      · intro e; injection e with e; subst e; exact ⟨h.1, h.2, rfl, hv⟩
      · rintro ⟨_, _, rfl, _⟩; rfl
    · rename_i hv
      constructor
      · intro e; cases e
      · rintro ⟨_, _, rfl, h4⟩; exact absurd h4 hv
  · rw [if_neg h]
    simp only [Bool.and_eq_true, decide_eq_true_eq, List.all_eq_true, not_and] at h
    constructor
    · intro e; cases e
    · rintro ⟨h1, h2, _⟩; exact absurd h2 (h h1)

end Verif.Str
