import Verif.Spec.Json
import Verif.Spec.List
import Verif.Proof.Split

/-!
# Reading what the encoder writes
-/

namespace Verif.Spec.Json

open Verif Str Verif.Json

theorem readEscape_hex {a b c d : Char} {n : Nat} (h : hexNumber a b c d = some n) (hn : n < 0xD800)
    (rest : Str) : readEscape ('u' :: a :: b :: c :: d :: rest) = some (Char.ofNat n, rest) := by
  simp only [readEscape, h]
  rw [if_pos (.inl hn)]

/-- One character of a string is read back. -/
theorem readChars_encodeChar (c : Char) (fuel : Nat) (rest : Str) :
    readChars (fuel + 1) (encodeChar c ++ rest) =
      (readChars fuel rest).map fun r => (c :: r.1, r.2) := by
  have hex : ∀ n < 64, hexNumber '0' '0' (hexChar (n / 16)) (hexChar (n % 16)) = some n := by decide
  unfold encodeChar
  by_cases h1 : c = '"'
  · subst h1; rfl
  rw [if_neg h1]
  by_cases h2 : c = '\\'
  · subst h2; rfl
  rw [if_neg h2]
  by_cases h3 : c = '\n'
  · subst h3; rfl
  rw [if_neg h3]
  by_cases h4 : c = '\r'
  · subst h4; rfl
  rw [if_neg h4]
  by_cases h5 : c = '\t'
  · subst h5; rfl
  rw [if_neg h5]
  by_cases h6 : (c.toNat < 32 || c = '<' || c = '>' || c = '&') = true
  · rw [if_pos h6]
    have hlt : c.toNat < 64 := by
      simp only [Bool.or_eq_true, decide_eq_true_eq] at h6
      rcases h6 with ((h | h) | h) | h
      · omega
      all_goals subst h; decide
    show (match readEscape ('u' :: '0' :: '0' :: hexChar (c.toNat / 16) :: hexChar (c.toNat % 16) :: rest) with
      | none => none
      | some (c, rest) => (readChars fuel rest).map fun r : Str × Str => (c :: r.1, r.2)) = _
    have : readEscape ('u' :: '0' :: '0' :: hexChar (c.toNat / 16) :: hexChar (c.toNat % 16) :: rest) =
        some (c, rest) := by
      rw [readEscape_hex (hex _ hlt) (by omega), Char.ofNat_toNat]
    rw [this]
  rw [if_neg h6]
  by_cases h7 : (c.toNat = 0x2028 || c.toNat = 0x2029) = true
  · rw [if_pos h7]
    show (match readEscape ('u' :: '2' :: '0' :: '2' :: hexChar (c.toNat % 16) :: rest) with
      | none => none
      | some (c, rest) => (readChars fuel rest).map fun r : Str × Str => (c :: r.1, r.2)) = _
    have : readEscape ('u' :: '2' :: '0' :: '2' :: hexChar (c.toNat % 16) :: rest) =
        some (c, rest) := by
      simp only [Bool.or_eq_true, decide_eq_true_eq] at h7
      have hn : hexNumber '2' '0' '2' (hexChar (c.toNat % 16)) = some c.toNat := by
        rcases h7 with h | h <;> rw [h] <;> decide
      rw [readEscape_hex hn (by omega), Char.ofNat_toNat]
    rw [this]
  rw [if_neg h7]
  simp only [Bool.or_eq_true, decide_eq_true_eq, not_or] at h6
  show (if c = '"' then _ else _) = _
  rw [if_neg h1, if_neg h2, if_neg h6.1.1.1]
  rfl

theorem length_encodeChar (c : Char) : 1 ≤ (encodeChar c).length := by
  unfold encodeChar
  repeat' split
  all_goals simp

/-- A string is read back. -/
theorem readChars_encode (s rest : Str) : ∀ fuel, s.length < fuel →
    readChars fuel (s.flatMap encodeChar ++ '"' :: rest) = some (s, rest) := by
  induction s with
  | nil =>
    intro fuel h
    match fuel, h with
    | fuel + 1, _ => rfl
  | cons c s ih =>
    intro fuel h
    match fuel, h with
    | fuel + 1, h =>
      rw [List.flatMap_cons, List.append_assoc, readChars_encodeChar,
        ih fuel (by simp at h; omega)]
      rfl

theorem length_flatMap_encodeChar (s : Str) : s.length ≤ (s.flatMap encodeChar).length := by
  induction s with
  | nil => simp
  | cons c s ih =>
    rw [List.flatMap_cons, List.length_append]
    have := length_encodeChar c
    simp only [List.length_cons]
    omega

theorem readString_encode (s rest : Str) : readString (encodeString s ++ rest) = some (s, rest) := by
  unfold encodeString
  show readString ('"' :: (s.flatMap encodeChar ++ s%"\"") ++ rest) = _
  rw [List.cons_append, List.append_assoc]
  show readChars _ (s.flatMap encodeChar ++ '"' :: rest) = _
  apply readChars_encode
  have := length_flatMap_encodeChar s
  simp only [List.length_append, List.length_cons]
  have h0 : ([] : Str).length = 0 := rfl
  omega

/-! ## Numbers -/

theorem natDigits_head (n : Nat) (hn : 0 < n) : ∀ fuel, n < fuel → ∀ acc,
    (natDigits fuel n acc).head? ≠ some '0' := by
  induction n using Nat.strongRecOn with
  | _ n ih =>
    intro fuel hf acc
    match fuel, hf with
    | fuel + 1, hf =>
      unfold natDigits
      split
      · rename_i h
        have : ∀ d, 0 < d → d < 10 → digitChar d ≠ '0' := by
          intro d h1 h2 he
          have := digitChar_toNat h2
          rw [he] at this
          have h0 : '0'.toNat = 48 := rfl
          omega
        simp only [List.head?_cons, ne_eq, Option.some.injEq]
        exact this n hn h
      · exact ih (n / 10) (by omega) (by omega) fuel (by omega) _

theorem natStr_ne_nil (n : Nat) : natStr n ≠ [] := by
  intro h
  have h1 := itoa_ne_nil' n
  exact h1 h
where
  itoa_ne_nil' (n : Nat) : natStr n ≠ [] := by
    have : ∀ fuel n acc, 0 < fuel → natDigits fuel n acc ≠ [] ∨ False := by
      intro fuel
      induction fuel with
      | zero => intro _ _ h; omega
      | succ k ih =>
        intro n acc _
        left
        unfold natDigits
        split
        · simp
        · cases k with
          | zero => simp [natDigits]
          | succ k => exact (ih _ _ (by omega)).resolve_right id
    exact (this (n + 1) n [] (by omega)).resolve_right id

theorem takeWhile_append_stop {p : Char → Bool} {s rest : Str} (h : ∀ c ∈ s, p c = true)
    (hr : ∀ c, rest.head? = some c → p c = false) :
    (s ++ rest).takeWhile p = s ∧ (s ++ rest).dropWhile p = rest := by
  induction s with
  | nil =>
    cases rest with
    | nil => exact ⟨rfl, rfl⟩
    | cons c r =>
      have := hr c rfl
      simp [List.takeWhile_cons, List.dropWhile_cons, this]
  | cons c s ih =>
    have hc := h c (by simp)
    obtain ⟨h1, h2⟩ := ih (fun c hc => h c (by simp [hc]))
    simp only [List.cons_append, List.takeWhile_cons, List.dropWhile_cons, hc, if_true, h1, h2]
    trivial

theorem readDigits_natStr (n : Nat) (rest : Str) (hr : ∀ c, rest.head? = some c → isDigit c = false) :
    readDigits (natStr n ++ rest) = some (n, rest) := by
  obtain ⟨h1, h2⟩ := takeWhile_append_stop (natStr_digits n) hr
  unfold readDigits
  dsimp only
  rw [h1, h2, decValue_natStr, if_neg]
  rintro (h | ⟨h, h'⟩)
  · exact natStr_ne_nil n h
  · rcases Nat.eq_zero_or_pos n with rfl | hn
    · exact h' (by decide)
    · exact natDigits_head n hn (n + 1) (by omega) [] h

theorem head_digit {c : Char} {n : Nat} {s : Str} (h : natStr n ++ s = c :: t) : isDigit c = true := by
  cases hn : natStr n with
  | nil => exact absurd hn (natStr_ne_nil n)
  | cons d ds =>
    rw [hn] at h
    injection h with h _
    subst h
    exact natStr_digits n _ (by rw [hn]; simp)

theorem readValue_itoa (i : Int) (rest : Str) (hr : ∀ c, rest.head? = some c → isDigit c = false) :
    readValue (itoa i ++ rest) = some (.number i, rest) := by
  unfold itoa
  split
  · show readValue ('-' :: (natStr i.natAbs ++ rest)) = _
    show (readDigits _).map _ = _
    rw [readDigits_natStr _ _ hr]
    simp only [Option.map_some]
    congr 3
    omega
  · have : readValue (natStr i.natAbs ++ rest) =
        (readDigits (natStr i.natAbs ++ rest)).map fun r => (.number r.1, r.2) := by
      unfold readValue
      split
      · rename_i h; exact absurd (head_digit h) (by decide)
      · rename_i h; exact absurd (head_digit h) (by decide)
      · rfl
    rw [this, readDigits_natStr _ _ hr]
    simp only [Option.map_some]
    congr 3
    omega

theorem readValue_encodeString (s rest : Str) :
    readValue (encodeString s ++ rest) = some (.string s, rest) := by
  show (readString (encodeString s ++ rest)).map _ = _
  rw [readString_encode]
  rfl

/-! ## Objects -/

/-- The text `t` of a value is read as `v` whatever follows it, as long as that does not begin with
a digit. -/
def Reads (t : Str) (v : Value) : Prop :=
  (∀ rest, (∀ c, rest.head? = some c → isDigit c = false) → readValue (t ++ rest) = some (v, rest)) ∧
    ∀ rest, skip (t ++ rest) = t ++ rest

theorem skip_cons {c : Char} {s : Str} (h : c ≠ ' ' ∧ c ≠ '\t' ∧ c ≠ '\n' ∧ c ≠ '\r') :
    skip (c :: s) = c :: s := by
  unfold skip
  rw [List.dropWhile_cons, if_neg]
  simp [h]

theorem Reads.string (s : Str) : Reads (encodeString s) (.string s) :=
  ⟨fun rest _ => readValue_encodeString s rest, fun rest => skip_cons (c := '"') (by decide)⟩

theorem Reads.int (i : Int) : Reads (itoa i) (.number i) := by
  refine ⟨fun rest hr => readValue_itoa i rest hr, fun rest => ?_⟩
  have hd : ∀ c, isDigit c = true → c ≠ ' ' ∧ c ≠ '\t' ∧ c ≠ '\n' ∧ c ≠ '\r' := by
    intro c hc
    refine ⟨?_, ?_, ?_, ?_⟩ <;> rintro rfl <;> exact absurd hc (by decide)
  unfold itoa
  split
  · exact skip_cons (c := '-') (by decide)
  · cases hn : natStr i.natAbs ++ rest with
    | nil => rfl
    | cons c t => exact skip_cons (hd c (head_digit hn))

/-- White space. -/
def Blank (s : Str) : Prop := ∀ c ∈ s, (c == ' ' || c == '\t' || c == '\n' || c == '\r') = true

theorem skip_blank {b : Str} (h : Blank b) (s : Str) : skip (b ++ s) = skip s := by
  unfold skip
  induction b with
  | nil => rfl
  | cons c b ih =>
    rw [List.cons_append, List.dropWhile_cons, if_pos (h c (by simp))]
    exact ih fun c hc => h c (by simp [hc])

/-- The text of members with blanks after the colons and commas. -/
def body (b₁ b₂ : Str) (ms : List (Str × Str)) : Str :=
  join (',' :: b₁) (ms.map fun m => encodeString m.1 ++ ':' :: b₂ ++ m.2)

theorem skip_encodeString (s rest : Str) : skip (encodeString s ++ rest) = encodeString s ++ rest :=
  skip_cons (c := '"') (by decide)

theorem readMember_encode {name t : Str} {v : Value} (h : Reads t v) {b : Str} (hb : Blank b) (rest : Str)
    (hr : ∀ c, rest.head? = some c → isDigit c = false) :
    readMember (encodeString name ++ ':' :: b ++ t ++ rest) = some ((name, v), rest) := by
  unfold readMember
  have e : encodeString name ++ ':' :: b ++ t ++ rest = encodeString name ++ (':' :: (b ++ (t ++ rest))) := by
    simp
  rw [e, readString_encode]
  show (match skip (':' :: (b ++ (t ++ rest))) with
    | ':' :: rest => (readValue (skip rest)).map fun r : Value × Str => ((name, r.1), r.2)
    | _ => none) = _
  rw [skip_cons (by decide)]
  show (readValue (skip (b ++ (t ++ rest)))).map _ = _
  rw [skip_blank hb, h.2, h.1 rest hr]
  rfl

theorem blank_head {b : Str} (hb : Blank b) {s : Str} {x : Char} (hx : isDigit x = false) :
    ∀ c, (b ++ x :: s).head? = some c → isDigit c = false := by
  intro c hc
  cases b with
  | nil => simp at hc; exact hc ▸ hx
  | cons d b =>
    simp at hc
    subst hc
    have := hb d (by simp)
    simp only [Bool.or_eq_true, beq_iff_eq] at this
    rcases this with ((h | h) | h) | h <;> subst h <;> decide

theorem readMembers_body {b₁ b₂ b₃ : Str} (h₁ : Blank b₁) (h₂ : Blank b₂) (h₃ : Blank b₃) (rest : Str) :
    ∀ (ms : List (Str × Str)) (vs : List (Str × Value)), ms ≠ [] →
      Pointwise (fun m v => m.1 = v.1 ∧ Reads m.2 v.2) ms vs → ∀ fuel, ms.length ≤ fuel →
      readMembers fuel (body b₁ b₂ ms ++ (b₃ ++ '}' :: rest)) = some (vs, rest) := by
  intro ms
  induction ms with
  | nil => intro _ h; exact absurd rfl h
  | cons m ms ih =>
    intro vs _ hp fuel hf
    cases hp with
    | cons hm hrest =>
      rename_i v vs
      obtain ⟨e1, e2⟩ := hm
      match fuel, hf with
      | fuel + 1, hf =>
        cases ms with
        | nil =>
          cases hrest
          show readMembers (fuel + 1) (encodeString m.1 ++ ':' :: b₂ ++ m.2 ++ (b₃ ++ '}' :: rest)) = _
          unfold readMembers
          rw [readMember_encode e2 h₂ _ (blank_head h₃ (by decide))]
          simp only [skip_blank h₃, skip_cons (c := '}') (by decide)]
          rw [e1]
        | cons m' ms =>
          have e : body b₁ b₂ (m :: m' :: ms) ++ (b₃ ++ '}' :: rest) =
              encodeString m.1 ++ ':' :: b₂ ++ m.2 ++ (',' :: (b₁ ++ (body b₁ b₂ (m' :: ms) ++ (b₃ ++ '}' :: rest)))) := by
            unfold body
            simp only [List.map_cons, join, List.append_assoc, List.cons_append]
          rw [e]
          unfold readMembers
          rw [readMember_encode e2 h₂ _ (by intro c hc; simp at hc; subst hc; decide)]
          simp only [skip_cons (c := ',') (by decide)]
          have hs : skip (b₁ ++ (body b₁ b₂ (m' :: ms) ++ (b₃ ++ '}' :: rest))) =
              body b₁ b₂ (m' :: ms) ++ (b₃ ++ '}' :: rest) := by
            rw [skip_blank h₁]
            unfold body
            cases ms with
            | nil => exact skip_cons (c := '"') (by decide)
            | cons _ _ => exact skip_cons (c := '"') (by decide)
          rw [hs, ih vs (by simp) hrest fuel (by simp at hf ⊢; omega)]
          rw [e1]
          rfl

theorem length_body (b₁ b₂ : Str) : ∀ ms : List (Str × Str), ms.length ≤ (body b₁ b₂ ms).length
  | [] => Nat.zero_le _
  | [m] => by
    show 1 ≤ (encodeString m.1 ++ ':' :: b₂ ++ m.2).length
    unfold encodeString
    simp
  | m :: m' :: ms => by
    have := length_body b₁ b₂ (m' :: ms)
    have e : body b₁ b₂ (m :: m' :: ms) =
        encodeString m.1 ++ ':' :: b₂ ++ m.2 ++ ',' :: b₁ ++ body b₁ b₂ (m' :: ms) := rfl
    rw [e]
    simp only [List.length_append, List.length_cons] at *
    omega

/-- An object with members is read back. -/
theorem readObject_body {b₀ b₁ b₂ b₃ b₄ : Str} (h₀ : Blank b₀) (h₁ : Blank b₁) (h₂ : Blank b₂) (h₃ : Blank b₃)
    (h₄ : Blank b₄) {ms : List (Str × Str)} {vs : List (Str × Value)} (hne : ms ≠ [])
    (hp : Pointwise (fun m v => m.1 = v.1 ∧ Reads m.2 v.2) ms vs) :
    readObject ('{' :: (b₀ ++ (body b₁ b₂ ms ++ (b₃ ++ '}' :: b₄)))) = some vs := by
  have hq : ∃ t, body b₁ b₂ ms ++ (b₃ ++ '}' :: b₄) = '"' :: t := by
    match ms, hne with
    | [m], _ => exact ⟨_, rfl⟩
    | m :: m' :: ms, _ => exact ⟨_, rfl⟩
  have hr := readMembers_body h₁ h₂ h₃ b₄ ms vs hne hp (body b₁ b₂ ms ++ (b₃ ++ '}' :: b₄)).length (by
    have := length_body b₁ b₂ ms
    simp only [List.length_append]
    omega)
  have h4 : skip b₄ = [] := by
    have := skip_blank h₄ []
    rw [List.append_nil] at this
    exact this
  obtain ⟨t, ht⟩ := hq
  rw [ht] at hr ⊢
  unfold readObject
  rw [skip_cons (by decide)]
  simp only [skip_blank h₀, skip_cons (c := '"') (s := t) (by decide)]
  show (match readMembers ('"' :: t).length ('"' :: t) with
    | some (ms, rest) => if skip rest = [] then some ms else none
    | none => none) = _
  rw [hr]
  show (if skip b₄ = [] then _ else _) = _
  rw [if_pos h4]

theorem blank_nil : Blank [] := fun _ h => nomatch h

/-- What `json.Marshal` writes for a struct is read back. -/
theorem readObject_encodeStruct {ms : List (Str × Str)} {vs : List (Str × Value)}
    (hp : Pointwise (fun m v => m.1 = v.1 ∧ Reads m.2 v.2) ms vs) :
    readObject (encodeStruct ms) = some vs := by
  by_cases hne : ms = []
  · subst hne
    cases hp
    rfl
  · have := readObject_body blank_nil blank_nil blank_nil blank_nil blank_nil hne hp
    simp only [List.nil_append] at this
    rw [← this]
    unfold encodeStruct body
    simp only [List.append_assoc, List.cons_append, List.nil_append]

/-- What an encoder that indents writes for a struct is read back. -/
theorem readObject_encodeIndented {ms : List (Str × Str)} {vs : List (Str × Value)}
    (hp : Pointwise (fun m v => m.1 = v.1 ∧ Reads m.2 v.2) ms vs) :
    readObject (encodeIndented ms) = some vs := by
  unfold encodeIndented
  by_cases hne : ms = []
  · subst hne
    cases hp
    rfl
  · rw [if_neg hne]
    have := readObject_body (b₀ := s%"\n  ") (b₁ := s%"\n  ") (b₂ := s%" ") (b₃ := s%"\n") (b₄ := s%"\n")
      (by unfold Blank; decide) (by unfold Blank; decide) (by unfold Blank; decide) (by unfold Blank; decide)
      (by unfold Blank; decide) hne hp
    rw [← this]
    unfold body
    simp only [List.append_assoc, List.cons_append, List.nil_append]

/-! ## Members that may be left out -/

/-- The member of a string that is left out if empty. -/
def stringValue (name s : Str) : List (Str × Value) := if s = [] then [] else [(name, .string s)]

/-- The member of a number that is left out if 0. -/
def intValue (name : Str) (i : Int) : List (Str × Value) := if i = 0 then [] else [(name, .number i)]

theorem pointwise_append {α β : Type} {R : α → β → Prop} {as as' : List α} {bs bs' : List β}
    (h : Pointwise R as bs) (h' : Pointwise R as' bs') : Pointwise R (as ++ as') (bs ++ bs') := by
  induction h with
  | nil => exact h'
  | cons h _ ih => exact .cons h ih

theorem pointwise_string (name s : Str) :
    Pointwise (fun m v => m.1 = v.1 ∧ Reads m.2 v.2) (stringMember name s) (stringValue name s) := by
  unfold stringMember stringValue
  split
  · exact .nil
  · exact .cons ⟨rfl, Reads.string s⟩ .nil

theorem pointwise_int (name : Str) (i : Int) :
    Pointwise (fun m v => m.1 = v.1 ∧ Reads m.2 v.2) (intMember name i) (intValue name i) := by
  unfold intMember intValue
  split
  · exact .nil
  · exact .cons ⟨rfl, Reads.int i⟩ .nil

theorem lookup_append_none {name : Str} {as bs : List (Str × Value)} (h : as.lookup name = none) :
    (as ++ bs).lookup name = bs.lookup name := by
  rw [List.lookup_append, h]
  rfl

theorem lookup_stringValue_ne {name name' s : Str} (h : name ≠ name') : (stringValue name' s).lookup name = none := by
  unfold stringValue
  split
  · rfl
  · rw [List.lookup_cons, beq_eq_false_iff_ne.2 h]
    rfl

theorem lookup_intValue_ne {name name' : Str} {i : Int} (h : name ≠ name') : (intValue name' i).lookup name = none := by
  unfold intValue
  split
  · rfl
  · rw [List.lookup_cons, beq_eq_false_iff_ne.2 h]
    rfl

theorem lookup_stringValue (name s : Str) :
    (stringValue name s).lookup name = if s = [] then none else some (.string s) := by
  unfold stringValue
  split
  · rfl
  · simp [List.lookup_cons]

theorem lookup_intValue (name : Str) (i : Int) :
    (intValue name i).lookup name = if i = 0 then none else some (.number i) := by
  unfold intValue
  split
  · rfl
  · simp [List.lookup_cons]

theorem lookup_append_or {name : Str} {as bs : List (Str × Value)} (h : bs.lookup name = none) :
    (as ++ bs).lookup name = as.lookup name := by
  rw [List.lookup_append, h, Option.or_none]

theorem string_or_empty (s : Str) : (match (if s = [] then none else some (.string s) : Option Value) with
    | none => some []
    | some (.string s) => some s
    | some (.number _) => none) = some s := by
  by_cases h : s = []
  · subst h; rfl
  · rw [if_neg h]

theorem number_or_zero (i : Int) : (match (if i = 0 then none else some (.number i) : Option Value) with
    | none => some 0
    | some (.number i) => some i
    | some (.string _) => none) = some i := by
  by_cases h : i = 0
  · subst h; rfl
  · rw [if_neg h]

/-- A failure is read back. -/
theorem readFailure_json (f : Text.Failure) : readFailure f.json = some f := by
  have hp := pointwise_append (pointwise_append (pointwise_append (pointwise_append
    (pointwise_string s%"filename" f.filename) (pointwise_int s%"line" f.line))
    (pointwise_int s%"column" f.column)) (pointwise_string s%"lint_id" f.lintID))
    (pointwise_string s%"message" f.message)
  have ho := readObject_encodeStruct hp
  generalize hv : stringValue s%"filename" f.filename ++ intValue s%"line" f.line ++
    intValue s%"column" f.column ++ stringValue s%"lint_id" f.lintID ++
    stringValue s%"message" f.message = vs at ho
  have h1 : stringOf vs s%"filename" = some f.filename := by
    unfold stringOf
    rw [← hv, lookup_append_or (lookup_stringValue_ne (by decide)), lookup_append_or (lookup_stringValue_ne (by decide)),
      lookup_append_or (lookup_intValue_ne (by decide)), lookup_append_or (lookup_intValue_ne (by decide)),
      lookup_stringValue]
    exact string_or_empty _
  have h2 : numberOf vs s%"line" = some f.line := by
    unfold numberOf
    rw [← hv, lookup_append_or (lookup_stringValue_ne (by decide)), lookup_append_or (lookup_stringValue_ne (by decide)),
      lookup_append_or (lookup_intValue_ne (by decide)), lookup_append_none (lookup_stringValue_ne (by decide)),
      lookup_intValue]
    exact number_or_zero _
  have h3 : numberOf vs s%"column" = some f.column := by
    unfold numberOf
    rw [← hv, lookup_append_or (lookup_stringValue_ne (by decide)), lookup_append_or (lookup_stringValue_ne (by decide)),
      lookup_append_none, lookup_intValue]
    · exact number_or_zero _
    · rw [lookup_append_none (lookup_stringValue_ne (by decide)), lookup_intValue_ne (by decide)]
  have h4 : stringOf vs s%"lint_id" = some f.lintID := by
    unfold stringOf
    rw [← hv, lookup_append_or (lookup_stringValue_ne (by decide)), lookup_append_none, lookup_stringValue]
    · exact string_or_empty _
    · rw [lookup_append_none, lookup_intValue_ne (by decide)]
      rw [lookup_append_none (lookup_stringValue_ne (by decide)), lookup_intValue_ne (by decide)]
  have h5 : stringOf vs s%"message" = some f.message := by
    unfold stringOf
    rw [← hv, lookup_append_none, lookup_stringValue]
    · exact string_or_empty _
    · rw [lookup_append_none, lookup_stringValue_ne (by decide)]
      rw [lookup_append_none, lookup_intValue_ne (by decide)]
      rw [lookup_append_none (lookup_stringValue_ne (by decide)), lookup_intValue_ne (by decide)]
  unfold readFailure Text.Failure.json
  rw [ho]
  simp only [Option.bind_eq_bind, Option.bind_some, h1, h2, h3, h4, h5]
  rfl

/-! ## Lines -/

theorem nl_encodeChar (c : Char) : '\n' ∉ encodeChar c := by
  have hx : ∀ n < 16, hexChar n ≠ '\n' := by decide
  unfold encodeChar
  by_cases h1 : c = '"'
  · subst h1; decide
  rw [if_neg h1]
  by_cases h2 : c = '\\'
  · subst h2; decide
  rw [if_neg h2]
  by_cases h3 : c = '\n'
  · subst h3; decide
  rw [if_neg h3]
  repeat' split
  · decide
  · decide
  · rename_i h
    have hlt : c.toNat < 64 := by
      simp only [Bool.or_eq_true, decide_eq_true_eq] at h
      rcases h with ((h | h) | h) | h
      · omega
      all_goals subst h; decide
    simp only [List.mem_append, List.mem_cons, List.not_mem_nil, or_false, not_or]
    exact ⟨by decide, fun e => hx _ (by omega) e.symm, fun e => hx _ (by omega) e.symm⟩
  · simp only [List.mem_append, List.mem_cons, List.not_mem_nil, or_false, not_or]
    exact ⟨by decide, fun e => hx _ (by omega) e.symm⟩
  · simp only [List.mem_singleton]
    exact fun e => h3 e.symm

theorem nl_encodeString (s : Str) : '\n' ∉ encodeString s := by
  unfold encodeString
  simp only [List.mem_append, List.mem_flatMap, not_or, not_exists, not_and]
  exact ⟨⟨by decide, fun c _ => nl_encodeChar c⟩, by decide⟩

theorem nl_itoa (i : Int) : '\n' ∉ itoa i := by
  have h : ∀ n, '\n' ∉ natStr n := fun n hm => absurd (natStr_digits n _ hm) (by decide)
  unfold itoa
  split
  · simp only [List.mem_cons, not_or]
    exact ⟨by decide, h _⟩
  · exact h _

theorem nl_join {sep : Str} (hs : '\n' ∉ sep) : ∀ ws : List Str, (∀ w ∈ ws, '\n' ∉ w) → '\n' ∉ join sep ws
  | [], _ => by simp [join]
  | [w], h => h w (by simp)
  | w :: w' :: ws, h => by
    show '\n' ∉ w ++ sep ++ join sep (w' :: ws)
    simp only [List.mem_append, not_or]
    exact ⟨⟨h w (by simp), hs⟩, nl_join hs (w' :: ws) fun x hx => h x (by simp only [List.mem_cons] at hx ⊢; exact .inr hx)⟩

theorem nl_encodeStruct {ms : List (Str × Str)} (h : ∀ m ∈ ms, '\n' ∉ m.2) : '\n' ∉ encodeStruct ms := by
  unfold encodeStruct
  simp only [List.mem_append, not_or]
  refine ⟨⟨by decide, nl_join (by decide) _ fun w hw => ?_⟩, by decide⟩
  obtain ⟨m, hm, rfl⟩ := List.mem_map.1 hw
  simp only [List.mem_append, not_or]
  exact ⟨⟨nl_encodeString _, by decide⟩, h m hm⟩

theorem nl_json (f : Text.Failure) : '\n' ∉ f.json := by
  refine nl_encodeStruct fun m hm => ?_
  have hs : ∀ name s, m ∈ stringMember name s → '\n' ∉ m.2 := by
    intro name s h
    unfold stringMember at h
    split at h
    · cases h
    · rw [List.mem_singleton.1 h]
      exact nl_encodeString _
  have hi : ∀ name i, m ∈ intMember name i → '\n' ∉ m.2 := by
    intro name s h
    unfold intMember at h
    split at h
    · cases h
    · rw [List.mem_singleton.1 h]
      exact nl_itoa _
  simp only [List.mem_append] at hm
  rcases hm with (((h | h) | h) | h) | h
  · exact hs _ _ h
  · exact hi _ _ h
  · exact hi _ _ h
  · exact hs _ _ h
  · exact hs _ _ h

/-- Lines put one after the other are found again. -/
theorem linesOf_flatMap (ls : List Str) (h : ∀ l ∈ ls, '\n' ∉ l) :
    linesOf (ls.flatMap (· ++ s%"\n")) = some ls := by
  have : splitChar '\n' (ls.flatMap (· ++ s%"\n")) = ls ++ [[]] := by
    induction ls with
    | nil => rfl
    | cons l ls ih =>
      rw [List.flatMap_cons, List.append_assoc]
      show splitChar '\n' (l ++ '\n' :: (ls.flatMap (· ++ s%"\n"))) = _
      rw [splitChar_append '\n' (h l (by simp)), ih fun x hx => h x (by simp [hx])]
      rfl
  unfold linesOf
  rw [this, List.reverse_append]
  simp

end Verif.Spec.Json
