import Verif.Proof.Reports
import Verif.Proof.Split
import Verif.Proof.Walk
import Verif.Props.Version

/-! # The predicates on names and comments -/

namespace Verif.Lint

open Verif Proto Spec Str

theorem isCamelCase_iff (s : Str) : Strs.isCamelCase s = true ↔ CamelCase s := by
  cases s with
  | nil => simp [Strs.isCamelCase, CamelCase]
  | cons c t => simp [Strs.isCamelCase, CamelCase]

theorem isCapitalized_iff (s : Str) : Strs.isCapitalized s = true ↔ Capitalized s := by
  cases s with
  | nil => simp [Strs.isCapitalized, Capitalized]
  | cons c t => simp [Strs.isCapitalized, Capitalized]

theorem isLowerSnakeCase_iff (s : Str) : Strs.isLowerSnakeCase s = true ↔ LowerSnakeCase s := by
  simp only [Strs.isLowerSnakeCase, Strs.noOuterUnderscore, LowerSnakeCase, Bool.and_eq_true,
    decide_eq_true_eq, List.all_eq_true, Bool.or_eq_true, and_assoc, or_assoc]

theorem isUpperSnakeCase_iff (s : Str) : Strs.isUpperSnakeCase s = true ↔ UpperSnakeCase s := by
  simp only [Strs.isUpperSnakeCase, Strs.noOuterUnderscore, UpperSnakeCase, Bool.and_eq_true,
    decide_eq_true_eq, List.all_eq_true, Bool.or_eq_true, and_assoc, or_assoc]

theorem map_eq_self {f : Char → Char} (s : Str) : s.map f = s ↔ ∀ c ∈ s, f c = c := by
  induction s with
  | nil => simp
  | cons c t ih => simp [ih]

theorem ofNat_toNat {n : Nat} (h : n < 0xd800) : (Char.ofNat n).toNat = n := by
  have : n.isValidChar := Or.inl (by simpa using h)
  simp [Char.ofNat, this, Char.toNat, Char.ofNatAux]

theorem lowerChar_eq (c : Char) : lowerChar c = c ↔ isUpper c = false := by
  unfold lowerChar
  by_cases h : isUpper c = true
  · simp only [h, if_true]
    constructor
    · intro he
      have h' := h
      simp only [isUpper, Bool.and_eq_true, decide_eq_true_eq] at h'
      have hb : c.toNat + 32 < 0xd800 := by
        have : 'Z'.toNat = 90 := rfl
        omega
      have := congrArg Char.toNat he
      rw [ofNat_toNat hb] at this
      omega
    · intro h; cases h
  · simp [Bool.of_not_eq_true h]

theorem upperChar_eq (c : Char) : upperChar c = c ↔ isLower c = false := by
  unfold upperChar
  by_cases h : isLower c = true
  · simp only [h, if_true]
    constructor
    · intro he
      have h' := h
      simp only [isLower, Bool.and_eq_true, decide_eq_true_eq] at h'
      have h1 : 'a'.toNat = 97 := rfl
      have h2 : 'z'.toNat = 122 := rfl
      have := congrArg Char.toNat he
      rw [ofNat_toNat (by omega)] at this
      omega
    · intro h; cases h
  · simp [Bool.of_not_eq_true h]

theorem isLowercase_iff (s : Str) : Strs.isLowercase s = true ↔ Lowercase s := by
  simp only [Strs.isLowercase, Lowercase, Bool.and_eq_true, decide_eq_true_eq, toLower, map_eq_self,
    lowerChar_eq]

theorem isUppercase_iff (s : Str) : Strs.isUppercase s = true ↔ Uppercase s := by
  simp only [Strs.isUppercase, Uppercase, Bool.and_eq_true, decide_eq_true_eq, toUpper, map_eq_self,
    upperChar_eq]

theorem hasGolangStyleComment_iff (c : Option Comment) (name : Str) :
    hasGolangStyleComment c name = true ↔ CommentNames c name := by
  unfold hasGolangStyleComment CommentNames
  cases c with
  | none => simp
  | some c =>
    cases hl : c.lines with
    | nil => simp [hl]
    | cons first rest =>
      dsimp only
      rw [hl]
      dsimp only
      rw [hasPrefix_iff]
      constructor
      · rintro ⟨t, ht⟩
        exact ⟨c, first, rest, t, rfl, hl, ht⟩
      · rintro ⟨c', first', rest', t, h1, h2, h3⟩
        cases h1
        rw [hl] at h2
        cases h2
        exact ⟨t, h3⟩

theorem beginsSentence_iff (c : Char) :
    (isUpperByte (firstByte c) || isDigitByte (firstByte c)) = true ↔ BeginsSentence c := by
  unfold BeginsSentence
  simp only [isUpperByte, isDigitByte, isUpper, isDigit, Bool.or_eq_true, Bool.and_eq_true,
    decide_eq_true_eq]
  have hA : 'A'.toNat = 65 := rfl
  have hZ : 'Z'.toNat = 90 := rfl
  have h0 : '0'.toNat = 48 := rfl
  have h9 : '9'.toNat = 57 := rfl
  rw [hA, hZ, h0, h9]
  unfold firstByte
  split
  · omega
  · split
    · have : c.toNat / 64 ≥ 2 := by omega
      have : c.toNat / 64 < 32 := by omega
      omega
    · split
      · omega
      · omega

theorem dropWhile_snoc {f : Char → Bool} {c : Char} (hc : f c = false) (l : Str) :
    (l ++ [c]).dropWhile f = l.dropWhile f ++ [c] := by
  induction l with
  | nil => simp [hc]
  | cons a l ih =>
    rw [List.cons_append, List.dropWhile_cons, List.dropWhile_cons]
    split
    · exact ih
    · rfl

theorem dropWhile_white (f : Char → Bool) {white : Str} (hw : ∀ w ∈ white, f w = true) {c : Char}
    (hc : f c = false) (t : Str) : (white ++ c :: t).dropWhile f = c :: t := by
  induction white with
  | nil => simp [hc]
  | cons a l ih =>
    rw [List.cons_append, List.dropWhile_cons, if_pos (hw a List.mem_cons_self)]
    exact ih fun w h => hw w (List.mem_cons_of_mem _ h)

theorem trimSpace_white {white : Str} (hw : ∀ w ∈ white, isSpace w = true) {c : Char}
    (hc : isSpace c = false) (t : Str) : ∃ t', trimSpace (white ++ c :: t) = c :: t' := by
  unfold trimSpace trimRightBy trimLeftBy
  rw [dropWhile_white _ hw hc, List.reverse_cons, dropWhile_snoc hc, List.reverse_append]
  exact ⟨_, rfl⟩

theorem white_cases (s : Str) : (∀ c ∈ s, isSpace c = true) ∨
    ∃ white c t, s = white ++ c :: t ∧ (∀ w ∈ white, isSpace w = true) ∧ isSpace c = false := by
  induction s with
  | nil => exact .inl fun _ h => nomatch h
  | cons a s ih =>
    by_cases ha : isSpace a = true
    · rcases ih with h | ⟨w, c, t, rfl, hw, hc⟩
      · refine .inl fun c hc => ?_
        rcases List.mem_cons.1 hc with rfl | hc
        · exact ha
        · exact h c hc
      · refine .inr ⟨a :: w, c, t, rfl, fun x hx => ?_, hc⟩
        rcases List.mem_cons.1 hx with rfl | hx
        · exact ha
        · exact hw x hx
    · exact .inr ⟨[], a, s, rfl, fun _ h => (nomatch h), Bool.of_not_eq_true ha⟩

theorem trimSpace_all {s : Str} (h : ∀ c ∈ s, isSpace c = true) : trimSpace s = [] := by
  unfold trimSpace trimRightBy trimLeftBy
  have : s.dropWhile isSpace = [] := by
    induction s with
    | nil => rfl
    | cons a s ih =>
      rw [List.dropWhile_cons, if_pos (h a List.mem_cons_self)]
      exact ih fun c hc => h c (List.mem_cons_of_mem _ hc)
  rw [this]; rfl

theorem white_unique {white white' : Str} {c c' : Char} {t t' : Str}
    (h : white ++ c :: t = white' ++ c' :: t') (hw : ∀ w ∈ white, isSpace w = true)
    (hw' : ∀ w ∈ white', isSpace w = true) (hc : isSpace c = false) (hc' : isSpace c' = false) :
    c = c' := by
  have h1 := dropWhile_white isSpace hw hc t
  rw [h, dropWhile_white isSpace hw' hc'] at h1
  cases h1; rfl

theorem contains_period (line : Str) : contains line s%"." = true ↔ '.' ∈ line := by
  rw [contains_iff]
  constructor
  · rintro ⟨a, b, rfl⟩; simp
  · intro h
    obtain ⟨a, b, rfl⟩ := List.append_of_mem h
    exact ⟨a, b, by simp⟩

theorem hasCompleteSentenceComment_iff (c : Option Comment) :
    hasCompleteSentenceComment c = true ↔ CommentSentence c := by
  unfold hasCompleteSentenceComment CommentSentence
  cases c with
  | none => simp [commentStartsWithUppercaseLetter]
  | some c =>
    rw [Bool.and_eq_true]
    have h2 : commentContainsPeriod (some c) = true ↔ ∃ line ∈ c.lines, '.' ∈ line := by
      unfold commentContainsPeriod
      simp only [List.any_eq_true, contains_period]
    rw [h2]
    unfold commentStartsWithUppercaseLetter
    dsimp only
    cases hl : c.lines with
    | nil => simp [hl]
    | cons first rest =>
      dsimp only
      rcases white_cases first with hw | ⟨white, ch, text, rfl, hw, hch⟩
      · rw [trimSpace_all hw]
        constructor
        · rintro ⟨h, _⟩; cases h
        · rintro ⟨c', f, r, w, x, tx, h1, h2, rfl, h4, h5, -⟩
          cases h1
          rw [hl] at h2
          cases h2
          have := hw x (by simp)
          rw [h5] at this; cases this
      · obtain ⟨t', ht'⟩ := trimSpace_white hw hch text
        rw [ht']
        dsimp only
        rw [beginsSentence_iff]
        constructor
        · rintro ⟨h, hp⟩
          exact ⟨c, _, rest, white, ch, text, rfl, hl, rfl, hw, hch, h, by rw [hl]; exact hp⟩
        · rintro ⟨c', f, r, w, x, tx, h1, h2, h3, h4, h5, h6, h7⟩
          cases h1
          rw [hl] at h2 h7
          cases h2
          refine ⟨?_, h7⟩
          rw [white_unique h3 hw h4 hch h5]
          exact h6

theorem not_iff {b : Bool} {p : Prop} (h : b = true ↔ p) : (!b) = true ↔ ¬ p := by
  rw [Bool.not_eq_true', ← Bool.not_eq_true, h]

instance (c : Option Comment) (name : Str) : Decidable (CommentNames c name) :=
  decidable_of_iff _ (hasGolangStyleComment_iff c name)

instance (c : Option Comment) : Decidable (CommentSentence c) :=
  decidable_of_iff _ (hasCompleteSentenceComment_iff c)

theorem contains_infix {s p : Str} : contains s p = true ↔ p <:+: s := by
  rw [contains_iff]
  constructor
  · rintro ⟨a, b, rfl⟩; exact ⟨a, b, rfl⟩
  · rintro ⟨a, b, h⟩; exact ⟨a, b, h.symm⟩

theorem hasPrefix_prefix {s p : Str} : hasPrefix s p = true ↔ p <+: s :=
  List.isPrefixOf_iff_prefix

theorem hasSuffix_suffix {s p : Str} : hasSuffix s p = true ↔ p <:+ s :=
  List.isSuffixOf_iff_suffix

theorem isPackageLowerCase_iff (s : Str) : isPackageLowerCase s = true ↔ PackageLowerCase s := by
  unfold isPackageLowerCase PackageLowerCase
  rw [List.all_eq_true]
  refine forall_congr' fun c => imp_congr_right fun _ => ?_
  simp only [isLower, isDigit, Bool.or_eq_true, Bool.and_eq_true, decide_eq_true_eq, Char.le_def, or_assoc]
  rfl

theorem replaceAll_period (s : Str) : replaceAll s s%"." [] = s.filter (· ≠ '.') := by
  unfold replaceAll splitStr
  have h : ∀ s : Str, splitGo s%"." 0 s ≠ [] := by
    intro s
    cases s with
    | nil => simp [splitGo]
    | cons x xs =>
      rw [splitGo]
      split
      · simp
      · cases splitGo s%"." 0 xs <;> simp [consHead]
  have hj : ∀ (c : Char) (l : List Str), join [] (consHead c l) = c :: join [] l :=
    fun c l => join_consHead [] c l
  induction s with
  | nil => rfl
  | cons x xs ih =>
    rw [splitGo]
    by_cases hx : x = '.'
    · subst hx
      have hp : (s%".").isPrefixOf ('.' :: xs) = true := by simp [List.isPrefixOf]
      rw [if_pos hp]
      have : (s%".").length - 1 = 0 := rfl
      rw [this, join_cons_nil [] (h xs), List.nil_append, ih]
      simp
    · have hp : ¬ (s%".").isPrefixOf (x :: xs) = true := by
        simp [List.isPrefixOf, Ne.symm hx]
      rw [if_neg hp, hj, ih]
      simp [hx]

theorem takeWhile_append_stop {α : Type} (p : α → Bool) (l r : List α) (h : ∀ a ∈ l, p a = true) :
    (l ++ r).takeWhile p = l ++ r.takeWhile p := by
  induction l with
  | nil => rfl
  | cons a l ih =>
    rw [List.cons_append, List.takeWhile_cons, if_pos (h a List.mem_cons_self),
      ih fun b hb => h b (List.mem_cons_of_mem _ hb)]
    rfl

theorem lastComponent_proto (q : Str) :
    lastComponent (q ++ s%".proto") = lastComponent q ++ s%".proto" := by
  unfold lastComponent
  rw [List.reverse_append, takeWhile_append_stop _ _ _ (by decide), List.reverse_append,
    List.reverse_reverse]

theorem base_proto (q : Str) : Path.base (q ++ s%".proto") = lastComponent (q ++ s%".proto") := by
  unfold Path.base
  rw [if_neg (by simp)]
  have h : (q ++ s%".proto").reverse.dropWhile (· = '/') = (q ++ s%".proto").reverse := by
    rw [List.reverse_append]
    rfl
  dsimp only
  rw [h, if_neg]
  · rfl
  · intro he
    have := lastComponent_proto q
    unfold lastComponent at this
    rw [he] at this
    simp at this

theorem fileStem_eq {path : Str} (h : s%".proto" <:+ path) :
    trimSuffix (Path.base path) (Path.ext (Path.base path)) = fileStem path := by
  obtain ⟨q, rfl⟩ := h
  rw [base_proto]
  have he : Path.ext (lastComponent (q ++ s%".proto")) = s%".proto" := by
    rw [File.ext_proto_iff, lastComponent_proto]
    exact ⟨_, rfl⟩
  rw [he]
  unfold trimSuffix fileStem
  rw [if_pos]
  · rfl
  · rw [hasSuffix_iff, lastComponent_proto]
    exact ⟨_, rfl⟩

theorem versioned_iff (s : Str) : (Protostrs.majorBetaVersion s).isNone = true ↔
    ¬ ∃ major beta, VersionedAs s major beta := by
  rw [← Props.C13_not_versioned]
  cases Protostrs.majorBetaVersion s <;> simp

instance (s : Str) : Decidable (∃ major beta, VersionedAs s major beta) :=
  decidable_of_iff (¬ (Protostrs.majorBetaVersion s).isNone = true) (by
    rw [versioned_iff, Classical.not_not])

theorem lowerChar_underscore (c : Char) : lowerChar c = '_' ↔ c = '_' := by
  unfold lowerChar
  constructor
  · intro h
    split at h
    · rename_i hu
      exfalso
      simp only [isUpper, Bool.and_eq_true, decide_eq_true_eq] at hu
      have hz : 'Z'.toNat = 90 := rfl
      have ha : 'A'.toNat = 65 := rfl
      have h3 : '_'.toNat = 95 := rfl
      have := congrArg Char.toNat h
      rw [ofNat_toNat (by omega)] at this
      omega
    · exact h
  · intro h; subst h; rfl

theorem dropWhile_all_append {α : Type} {p : α → Bool} {l r : List α} (h : ∀ a ∈ l, p a = true) :
    (l ++ r).dropWhile p = r.dropWhile p := by
  induction l with
  | nil => rfl
  | cons a l ih =>
    rw [List.cons_append, List.dropWhile_cons, if_pos (h a List.mem_cons_self)]
    exact ih fun a ha => h a (List.mem_cons_of_mem _ ha)

theorem dropWhile_map' {α β : Type} (f : α → β) (p : β → Bool) (l : List α) :
    (l.map f).dropWhile p = (l.dropWhile fun a => p (f a)).map f := by
  induction l with
  | nil => rfl
  | cons a l ih =>
    rw [List.map_cons, List.dropWhile_cons, List.dropWhile_cons]
    split <;> rename_i h
    · exact ih
    · rfl

theorem mem_takeWhile {α : Type} {p : α → Bool} {l : List α} {a : α} (h : a ∈ l.takeWhile p) :
    p a = true := by
  induction l with
  | nil => cases h
  | cons b l ih =>
    rw [List.takeWhile_cons] at h
    split at h
    · rename_i hb
      rcases List.mem_cons.1 h with rfl | h
      · exact hb
      · exact ih h
    · cases h

theorem descriptor_iff (s : Str) :
    trimUnderscores (toLower s) = s%"descriptor" ↔ Descriptorish s := by
  unfold trimUnderscores trimRightBy trimLeftBy toLower
  constructor
  · intro h
    let p : Char → Bool := fun c => decide (lowerChar c = '_')
    have hp : ∀ c, p c = true → c = '_' := fun c hc =>
      (lowerChar_underscore c).1 (of_decide_eq_true hc)
    rw [dropWhile_map', ← List.map_reverse, dropWhile_map', ← List.map_reverse] at h
    refine ⟨s.takeWhile p, ((s.dropWhile p).reverse.dropWhile p).reverse,
      ((s.dropWhile p).reverse.takeWhile p).reverse, ?_, ?_, ?_, h⟩
    · rw [List.append_assoc, ← List.reverse_append, List.takeWhile_append_dropWhile,
        List.reverse_reverse, List.takeWhile_append_dropWhile]
    · intro c hc; exact hp c (mem_takeWhile hc)
    · intro c hc; exact hp c (mem_takeWhile (List.mem_reverse.1 hc))
  · rintro ⟨left, word, right, rfl, hl, hr, hw⟩
    unfold toLower at hw
    have hu : ∀ l : Str, (∀ c ∈ l, c = '_') → ∀ c ∈ l.map lowerChar, decide (c = '_') = true := by
      intro l hl c hc
      obtain ⟨x, hx, rfl⟩ := List.mem_map.1 hc
      rw [hl x hx]; rfl
    rw [List.map_append, List.map_append, List.append_assoc, dropWhile_all_append (hu left hl), hw]
    have : ∀ r : Str, (s%"descriptor" ++ r).dropWhile (· = '_') = s%"descriptor" ++ r := fun r => rfl
    rw [this, List.reverse_append, dropWhile_all_append]
    · rfl
    · intro c hc; exact hu right hr c (List.mem_reverse.1 hc)

instance (s : Str) : Decidable (Descriptorish s) := decidable_of_iff _ (descriptor_iff s)

theorem and_bool {a b : Bool} {p q : Prop} (ha : a = true ↔ p) (hb : b = true ↔ q) :
    (a && b) = true ↔ p ∧ q := by rw [Bool.and_eq_true, ha, hb]

theorem or_bool {a b : Bool} {p q : Prop} (ha : a = true ↔ p) (hb : b = true ↔ q) :
    (a || b) = true ↔ p ∨ q := by rw [Bool.or_eq_true, ha, hb]

instance (p s : Str) : Decidable (p <:+: s) := decidable_of_iff _ contains_infix

end Verif.Lint
