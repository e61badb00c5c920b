import Verif.Spec.JsonText

/-!
# The reader of JSON follows the grammar
-/

namespace Verif.Spec

open Verif Str
open Verif.Json (Doc isBlank skipSpace hexDigit getu4 isSurrogate decodeRune shortEscape readDoc readItems
  readMembers readLiteral)
open Verif.Spec.Json (hexNumber hexValue escaped)

namespace JsonRead

theorem hexDigit_eq (c : Char) : hexDigit c = hexValue c := by
  unfold hexDigit hexValue
  simp only [Bool.and_eq_true, decide_eq_true_eq]

theorem getu4_eq (a b c d : Char) (rest : Str) :
    getu4 ('\\' :: 'u' :: a :: b :: c :: d :: rest) = hexNumber a b c d := by
  simp only [getu4, hexNumber, hexDigit_eq]
  cases hexValue a <;> cases hexValue b <;> cases hexValue c <;> cases hexValue d <;> first | rfl | skip
  simp only [Option.some.injEq]
  omega

theorem shortEscape_eq (c : Char) : shortEscape c = escaped c := by
  unfold shortEscape
  by_cases h1 : c = '"'
  · subst h1; rfl
  by_cases h2 : c = '\\'
  · subst h2; rfl
  by_cases h3 : c = '/'
  · subst h3; rfl
  by_cases h4 : c = 'b'
  · subst h4; rfl
  by_cases h5 : c = 'f'
  · subst h5; rfl
  by_cases h6 : c = 'n'
  · subst h6; rfl
  by_cases h7 : c = 'r'
  · subst h7; rfl
  by_cases h8 : c = 't'
  · subst h8; rfl
  simp only [h1, h2, h3, h4, h5, h6, h7, h8, decide_false, Bool.or_self, if_false, Bool.false_eq_true]
  unfold escaped
  split <;> first | contradiction | rfl

theorem escaped_ne_u {e c : Char} (h : escaped e = some c) : e ≠ 'u' := by
  rintro rfl
  cases h

/-! ## Strings, forwards -/

theorem readChars_quote (fuel : Nat) (rest : Str) : Verif.Json.readChars (fuel + 1) ('"' :: rest) = some ([], rest) := rfl

theorem readChars_escape {fuel : Nat} {s : Str} {c : Char} {rest : Str}
    (h : Verif.Json.readEscape ('\\' :: s) = some (c, rest)) :
    Verif.Json.readChars (fuel + 1) ('\\' :: s) =
      (Verif.Json.readChars fuel rest).map fun r => (c :: r.1, r.2) := by
  rw [Verif.Json.readChars, if_neg (by decide), if_pos rfl, h]

theorem readChars_char {c : Char} {t : Str} (h : CharText c t) (fuel : Nat) (rest : Str) :
    Verif.Json.readChars (fuel + 1) (t ++ rest) =
      (Verif.Json.readChars fuel rest).map fun r => (c :: r.1, r.2) := by
  cases h with
  | plain h1 h2 h3 =>
    show Verif.Json.readChars (fuel + 1) (c :: rest) = _
    rw [Verif.Json.readChars, if_neg h2, if_neg h3, if_neg (by omega)]
  | @short e _ h =>
    apply readChars_escape
    have hu := escaped_ne_u h
    show Verif.Json.readEscape ('\\' :: e :: rest) = _
    unfold Verif.Json.readEscape
    split
    · rename_i x he
      injection he with _ he
      injection he with he _
      exact absurd he hu
    · rename_i he
      injection he with _ he
      injection he with he1 he2
      subst he1 he2
      rw [shortEscape_eq, h]
      rfl
    · rename_i h1 h2
      exact absurd rfl (h2 _ _)
  | @number a b c d n h hn =>
    apply readChars_escape
    show Verif.Json.readEscape ('\\' :: 'u' :: a :: b :: c :: d :: rest) = _
    rw [Verif.Json.readEscape, getu4_eq, h]
    have : isSurrogate n = false := by
      unfold isSurrogate
      simp only [Bool.and_eq_false_iff, decide_eq_false_iff_not]
      omega
    simp only [this, Bool.false_eq_true, if_false]
    rfl
  | @pair a b c d e f g h n m hn hm h1 h2 h3 h4 =>
    apply readChars_escape
    show Verif.Json.readEscape ('\\' :: 'u' :: a :: b :: c :: d :: '\\' :: 'u' :: e :: f :: g :: h :: rest) = _
    rw [Verif.Json.readEscape, getu4_eq, hn]
    have h5 : isSurrogate n = true := by
      unfold isSurrogate
      simp only [Bool.and_eq_true, decide_eq_true_eq]
      omega
    simp only [h5, if_true, List.drop_succ_cons, List.drop_zero]
    rw [getu4_eq, hm]
    have h6 : decodeRune n m = some ((n - 0xD800) * 0x400 + (m - 0xDC00) + 0x10000) := by
      unfold decodeRune
      rw [if_pos]
      simp only [Bool.and_eq_true, decide_eq_true_eq]
      omega
    simp only [Option.bind_some, h6]
    rw [show (n - 0xD800) * 0x400 + (m - 0xDC00) + 0x10000 = 0x10000 + (n - 0xD800) * 0x400 + (m - 0xDC00) by omega]

theorem charText_length {c : Char} {t : Str} (h : CharText c t) : 1 ≤ t.length := by
  cases h <;> simp

theorem bodyText_length {s t : Str} (h : BodyText CharText s t) : s.length ≤ t.length := by
  induction h with
  | nil => simp
  | cons h _ ih =>
    have := charText_length h
    simp only [List.length_append, List.length_cons]
    omega

theorem readChars_body {s t : Str} (h : BodyText CharText s t) (rest : Str) : ∀ fuel, s.length < fuel →
    Verif.Json.readChars fuel (t ++ '"' :: rest) = some (s, rest) := by
  induction h with
  | nil =>
    intro fuel hf
    match fuel, hf with
    | fuel + 1, _ => rfl
  | cons h _ ih =>
    intro fuel hf
    match fuel, hf with
    | fuel + 1, hf =>
      rw [List.append_assoc, readChars_char h, ih fuel (by simp only [List.length_cons] at hf; omega)]
      rfl

theorem readString_text {s t : Str} (h : StringText CharText s t) (rest : Str) :
    Verif.Json.readString (t ++ rest) = some (s, rest) := by
  cases h with
  | quoted h =>
    show Verif.Json.readString ('"' :: (_ ++ s%"\"") ++ rest) = _
    rw [List.cons_append, List.append_assoc]
    show Verif.Json.readChars _ (_ ++ '"' :: rest) = _
    apply readChars_body h
    have := bodyText_length h
    simp only [List.length_append]
    omega

/-! ## Numbers, forwards -/

theorem isDigit_iff (c : Char) : isDigit c = true ↔ '0' ≤ c ∧ c ≤ '9' := by
  unfold isDigit
  simp only [Bool.and_eq_true, decide_eq_true_eq, Char.le_def, UInt32.le_iff_toNat_le]
  rfl

/-- The text does not go on with a digit. -/
def NoDigit (rest : Str) : Prop := ∀ c, rest.head? = some c → isDigit c = false

/-- The text does not go on with a character of a number. -/
def NumEnd (rest : Str) : Prop :=
  ∀ c, rest.head? = some c → isDigit c = false ∧ c ≠ '.' ∧ c ≠ 'e' ∧ c ≠ 'E'

theorem take_digits {ds rest : Str} (h : ∀ c ∈ ds, isDigit c = true) (hr : NoDigit rest) :
    (ds ++ rest).takeWhile isDigit = ds ∧ (ds ++ rest).dropWhile isDigit = rest := by
  induction ds with
  | nil =>
    match rest, hr with
    | [], _ => exact ⟨rfl, rfl⟩
    | c :: rest, hr =>
      have := hr c rfl
      simp [this]
  | cons d ds ih =>
    have hd := h d List.mem_cons_self
    have := ih fun c hc => h c (List.mem_cons_of_mem _ hc)
    simp [hd, this]

theorem readDigits_text {ds rest : Str} (h : Digits ds) (hr : NoDigit rest) :
    Verif.Json.readDigits (ds ++ rest) = some (ds, rest) := by
  have := take_digits (fun c hc => (isDigit_iff c).2 (h.2 c hc)) hr
  unfold Verif.Json.readDigits
  rw [this.1, this.2, if_neg h.1]

theorem readInteger_text {int rest : Str} (h : Digits int) (h0 : int.head? = some '0' → int = s%"0")
    (hr : NoDigit rest) : Verif.Json.readInteger (int ++ rest) = some (int, rest) := by
  by_cases hz : int.head? = some '0'
  · rw [h0 hz]; rfl
  · match int, h, hz, h0 with
    | c :: cs, h, hz, _ =>
      rw [← readDigits_text h hr]
      unfold Verif.Json.readInteger
      split
      · rename_i heq
        injection heq with heq _
        subst heq
        exact absurd rfl hz
      · rfl

theorem digits_head {ds rest : Str} (h : Digits ds) : ∃ c t, ds ++ rest = c :: t ∧ '0' ≤ c ∧ c ≤ '9' := by
  match ds, h with
  | c :: cs, h => exact ⟨c, cs ++ rest, rfl, h.2 c List.mem_cons_self⟩
  | [], h => exact absurd rfl h.1

theorem readExponent_text {exp rest : Str}
    (h : exp = [] ∨ ∃ e s ds, (e = 'e' ∨ e = 'E') ∧ (s = [] ∨ s = s%"+" ∨ s = s%"-") ∧ Digits ds ∧
      exp = e :: s ++ ds) (hr : NumEnd rest) : Verif.Json.readExponent (exp ++ rest) = some (exp, rest) := by
  rcases h with rfl | ⟨e, s, ds, he, hs, hd, rfl⟩
  · match rest, hr with
    | [], _ => rfl
    | c :: rest, hr =>
      obtain ⟨_, _, h1, h2⟩ := hr c rfl
      show Verif.Json.readExponent (c :: rest) = _
      unfold Verif.Json.readExponent
      simp [h1, h2]
  · have hr' : NoDigit rest := fun c hc => (hr c hc).1
    have hsign : Verif.Json.readSign (s ++ (ds ++ rest)) = (s, ds ++ rest) := by
      rcases hs with rfl | rfl | rfl
      · obtain ⟨c, t, e, hc⟩ := digits_head (rest := rest) hd
        rw [List.nil_append, e]
        unfold Verif.Json.readSign
        split
        · rename_i heq; injection heq with heq _; subst heq; exact absurd hc (by decide)
        · rename_i heq; injection heq with heq _; subst heq; exact absurd hc (by decide)
        · rfl
      · rfl
      · rfl
    have : e :: s ++ ds ++ rest = e :: (s ++ (ds ++ rest)) := by simp
    rw [this]
    have h1 : (decide (e = 'e') || decide (e = 'E')) = true := by rcases he with h | h <;> simp [h]
    unfold Verif.Json.readExponent
    simp only
    rw [if_pos h1, hsign, readDigits_text hd hr']
    simp

theorem readFraction_text {frac rest : Str} (h : frac = [] ∨ ∃ ds, Digits ds ∧ frac = '.' :: ds)
    (hr : NoDigit rest) (hd : frac = [] → rest.head? ≠ some '.') :
    Verif.Json.readFraction (frac ++ rest) = some (frac, rest) := by
  rcases h with rfl | ⟨ds, h, rfl⟩
  · have hd := hd rfl
    show Verif.Json.readFraction rest = _
    unfold Verif.Json.readFraction
    split
    · exact absurd rfl hd
    · rfl
  · show (Verif.Json.readDigits (ds ++ rest)).map _ = _
    rw [readDigits_text h hr]
    rfl

theorem exp_noDigit {exp rest : Str}
    (h : exp = [] ∨ ∃ e s ds, (e = 'e' ∨ e = 'E') ∧ (s = [] ∨ s = s%"+" ∨ s = s%"-") ∧ Digits ds ∧
      exp = e :: s ++ ds) (hr : NumEnd rest) : NoDigit (exp ++ rest) ∧ (exp ++ rest).head? ≠ some '.' := by
  rcases h with rfl | ⟨e, s, ds, he, _, _, rfl⟩
  · exact ⟨fun c hc => (hr c hc).1, fun hc => (hr _ hc).2.1 rfl⟩
  · refine ⟨fun c hc => ?_, fun hc => ?_⟩
    · injection hc with hc
      subst hc
      rcases he with rfl | rfl <;> decide
    · injection hc with hc
      subst hc
      rcases he with h | h <;> exact absurd h (by decide)

theorem readUnsigned_text {int frac exp rest : Str} (h : Digits int) (h0 : int.head? = some '0' → int = s%"0")
    (hf : frac = [] ∨ ∃ ds, Digits ds ∧ frac = '.' :: ds)
    (he : exp = [] ∨ ∃ e s ds, (e = 'e' ∨ e = 'E') ∧ (s = [] ∨ s = s%"+" ∨ s = s%"-") ∧ Digits ds ∧
      exp = e :: s ++ ds) (hr : NumEnd rest) :
    Verif.Json.readUnsigned (int ++ (frac ++ (exp ++ rest))) = some (int ++ frac ++ exp, rest) := by
  obtain ⟨h1, h2⟩ := exp_noDigit he hr
  have h3 : NoDigit (frac ++ (exp ++ rest)) := by
    rcases hf with rfl | ⟨ds, _, rfl⟩
    · exact h1
    · intro c hc
      injection hc with hc
      subst hc
      decide
  unfold Verif.Json.readUnsigned
  rw [readInteger_text h h0 h3]
  simp only
  rw [readFraction_text hf h1 fun _ => h2]
  simp only
  rw [readExponent_text he hr]
  rfl

theorem numberText_head {t : Str} (h : NumberText t) : ∃ c t', t = c :: t' ∧ (c = '-' ∨ '0' ≤ c ∧ c ≤ '9') := by
  obtain ⟨sign, int, frac, exp, rfl, hs, hi, _⟩ := h.shape
  rcases hs with rfl | rfl
  · obtain ⟨c, t, e, hc⟩ := digits_head (rest := frac ++ exp) hi
    refine ⟨c, t, ?_, .inr hc⟩
    rw [← e]; simp
  · exact ⟨'-', int ++ frac ++ exp, by simp, .inl rfl⟩

theorem readNumber_text {t rest : Str} (h : NumberText t) (hr : NumEnd rest) :
    Verif.Json.readNumber (t ++ rest) = some (t, rest) := by
  obtain ⟨sign, int, frac, exp, rfl, hs, hi, h0, hf, he⟩ := h.shape
  have := readUnsigned_text hi h0 hf he hr
  rcases hs with rfl | rfl
  · obtain ⟨c, t, e, hc⟩ := digits_head (rest := frac ++ (exp ++ rest)) hi
    have e2 : [] ++ int ++ frac ++ exp ++ rest = c :: t := by rw [← e]; simp
    rw [e] at this
    rw [e2]
    unfold Verif.Json.readNumber
    split
    · rename_i heq
      injection heq with heq _
      subst heq
      exact absurd hc (by decide)
    · rw [this]; simp
  · have e2 : s%"-" ++ int ++ frac ++ exp ++ rest = '-' :: (int ++ (frac ++ (exp ++ rest))) := by simp
    rw [e2]
    show (Verif.Json.readUnsigned _).map _ = _
    rw [this]
    simp

theorem readLiteral_number {t rest : Str} (h : NumberText t) (hr : NumEnd rest) :
    readLiteral (t ++ rest) = some (.number t, rest) := by
  have hn := readNumber_text h hr
  obtain ⟨c, t', rfl, hc⟩ := numberText_head h
  rw [List.cons_append] at hn ⊢
  unfold readLiteral
  split
  · rename_i heq; injection heq with heq _; subst heq; rcases hc with hc | hc <;> exact absurd hc (by decide)
  · rename_i heq; injection heq with heq _; subst heq; rcases hc with hc | hc <;> exact absurd hc (by decide)
  · rename_i heq; injection heq with heq _; subst heq; rcases hc with hc | hc <;> exact absurd hc (by decide)
  · rw [hn]; rfl

/-! ## Values, forwards -/

theorem isBlank_iff (c : Char) : isBlank c = true ↔ c = ' ' ∨ c = '\t' ∨ c = '\n' ∨ c = '\r' := by
  unfold isBlank
  simp only [Bool.or_eq_true, beq_iff_eq]
  grind

theorem skipSpace_blanks {w rest : Str} (h : Blanks w) (hr : ∀ c, rest.head? = some c → isBlank c = false) :
    skipSpace (w ++ rest) = rest := by
  unfold skipSpace
  induction w with
  | nil =>
    match rest, hr with
    | [], _ => rfl
    | c :: rest, hr => simp [hr c rfl]
  | cons c w ih =>
    have hc := (isBlank_iff c).2 (h c List.mem_cons_self)
    simp [hc, ih fun x hx => h x (List.mem_cons_of_mem _ hx)]

theorem stringText_head {R : Char → Str → Prop} {s t : Str} (h : StringText R s t) : ∃ t', t = '"' :: t' := by
  cases h with
  | quoted h => exact ⟨_, rfl⟩

/-- A value starts with a character that is no blank and does not close anything. -/
theorem docText_head {R : Char → Str → Prop} {d : Doc} {t : Str} (h : DocText R d t) :
    ∃ c t', t = c :: t' ∧ isBlank c = false ∧ c ≠ ']' := by
  cases h with
  | null => exact ⟨_, _, rfl, by decide, by decide⟩
  | yes => exact ⟨_, _, rfl, by decide, by decide⟩
  | no => exact ⟨_, _, rfl, by decide, by decide⟩
  | number h =>
    obtain ⟨c, t', e, hc⟩ := numberText_head h
    refine ⟨c, t', e, ?_, ?_⟩
    · rw [Bool.eq_false_iff]
      intro hs
      rcases (isBlank_iff c).1 hs with rfl | rfl | rfl | rfl <;> exact absurd hc (by decide)
    · rintro rfl
      exact absurd hc (by decide)
  | string h =>
    obtain ⟨t', e⟩ := stringText_head h
    exact ⟨_, _, e, by decide, by decide⟩
  | emptyArray => exact ⟨_, _, rfl, by decide, by decide⟩
  | array => exact ⟨_, _, rfl, by decide, by decide⟩
  | emptyObject => exact ⟨_, _, rfl, by decide, by decide⟩
  | object => exact ⟨_, _, rfl, by decide, by decide⟩

theorem numEnd_blanks {w rest : Str} (h : Blanks w) (hr : NumEnd rest) : NumEnd (w ++ rest) := by
  match w, h with
  | [], _ => exact hr
  | c :: w, h =>
    intro x hx
    injection hx with hx
    subst hx
    rcases h c List.mem_cons_self with rfl | rfl | rfl | rfl <;> decide

theorem numEnd_cons {c : Char} (rest : Str) (h : c = ',' ∨ c = ']' ∨ c = '}') : NumEnd (c :: rest) := by
  intro x hx
  injection hx with hx
  subst hx
  rcases h with rfl | rfl | rfl <;> decide

theorem noSpace_cons {c : Char} (rest : Str) (h : isBlank c = false) :
    ∀ x, (c :: rest).head? = some x → isBlank x = false := by
  intro x hx
  injection hx with hx
  subst hx
  exact h

theorem skipSpace_doc {R : Char → Str → Prop} {d : Doc} {v t rest : Str} (hv : Blanks v) (h : DocText R d t) :
    skipSpace (v ++ (t ++ rest)) = t ++ rest := by
  obtain ⟨c, t', rfl, hc, _⟩ := docText_head h
  exact skipSpace_blanks hv (noSpace_cons _ hc)

mutual
theorem readDoc_text {d : Doc} {t : Str} : DocText CharText d t → ∀ fuel, t.length ≤ fuel → ∀ rest, NumEnd rest →
    readDoc fuel (t ++ rest) = some (d, rest)
  | .null, fuel + 1, _, rest, _ => by rfl
  | .yes, fuel + 1, _, rest, _ => by rfl
  | .no, fuel + 1, _, rest, _ => by rfl
  | .null, 0, hf, rest, _ => by simp at hf
  | .yes, 0, hf, rest, _ => by simp at hf
  | .no, 0, hf, rest, _ => by simp at hf
  | .number h, fuel, hf, rest, hr => by
    have hl := readLiteral_number h hr
    obtain ⟨c, t', rfl, hc⟩ := numberText_head h
    match fuel, hf with
    | fuel + 1, _ =>
      rw [List.cons_append] at hl ⊢
      unfold readDoc
      split
      · rename_i heq; injection heq with heq _; subst heq; exact absurd hc (by decide)
      · rename_i heq; injection heq with heq _; subst heq; exact absurd hc (by decide)
      · rename_i heq; injection heq with heq _; subst heq; exact absurd hc (by decide)
      · exact hl
  | .string h, fuel, hf, rest, hr => by
    have hs := readString_text h rest
    obtain ⟨t', rfl⟩ := stringText_head h
    match fuel, hf with
    | fuel + 1, _ =>
      rw [List.cons_append] at hs ⊢
      unfold readDoc
      simp only [hs, Option.map_some]
  | .emptyArray (w := w) h, fuel, hf, rest, hr => by
    match fuel, hf with
    | fuel + 1, _ =>
      have : '[' :: w ++ s%"]" ++ rest = '[' :: (w ++ ']' :: rest) := by simp
      rw [this]
      unfold readDoc
      simp only [skipSpace_blanks h (noSpace_cons (c := ']') rest (by decide))]
  | .emptyObject (w := w) h, fuel, hf, rest, hr => by
    match fuel, hf with
    | fuel + 1, _ =>
      have : '{' :: w ++ s%"}" ++ rest = '{' :: (w ++ '}' :: rest) := by simp
      rw [this]
      unfold readDoc
      simp only [skipSpace_blanks h (noSpace_cons (c := '}') rest (by decide))]
  | .array (t := t) h, fuel, hf, rest, hr => by
    match fuel, hf with
    | fuel + 1, hf =>
      have : '[' :: t ++ s%"]" ++ rest = '[' :: (t ++ ']' :: rest) := by simp
      rw [this]
      obtain ⟨h1, h2⟩ := readItems_text h fuel (by simp at hf; omega) rest
      unfold readDoc
      simp only
      rw [h1]
      rfl
  | .object (t := t) h, fuel, hf, rest, hr => by
    match fuel, hf with
    | fuel + 1, hf =>
      have : '{' :: t ++ s%"}" ++ rest = '{' :: (t ++ '}' :: rest) := by simp
      rw [this]
      obtain ⟨h1, h2⟩ := readMembers_text h fuel (by simp at hf; omega) rest
      unfold readDoc
      simp only
      rw [h1]
      rfl

theorem readItems_text {ds : List Doc} {t : Str} : ItemsText CharText ds t → ∀ fuel, t.length < fuel → ∀ rest,
    readItems fuel (skipSpace (t ++ ']' :: rest)) = some (ds, rest) ∧
      ∀ x, skipSpace (t ++ ']' :: rest) ≠ ']' :: x
  | .one (v := v) (t := t) (w := w) hv h hw, fuel, hf, rest => by
    match fuel, hf with
    | fuel + 1, hf =>
      have e : v ++ t ++ w ++ ']' :: rest = v ++ (t ++ (w ++ ']' :: rest)) := by simp
      rw [e, skipSpace_doc hv h]
      refine ⟨?_, ?_⟩
      · unfold readItems
        rw [readDoc_text h fuel (by simp at hf; omega) _ (numEnd_blanks hw (numEnd_cons rest (by simp)))]
        simp only [skipSpace_blanks hw (noSpace_cons (c := ']') rest (by decide))]
      · obtain ⟨c, t', rfl, _, hc⟩ := docText_head h
        intro x hx
        injection hx with hx _
        exact hc hx
  | .more (v := v) (t := t) (w := w) (u := u) hv h hw hs, fuel, hf, rest => by
    match fuel, hf with
    | fuel + 1, hf =>
      have e : v ++ t ++ w ++ ',' :: u ++ ']' :: rest = v ++ (t ++ (w ++ ',' :: (u ++ ']' :: rest))) := by simp
      rw [e, skipSpace_doc hv h]
      refine ⟨?_, ?_⟩
      · unfold readItems
        rw [readDoc_text h fuel (by simp at hf; omega) _ (numEnd_blanks hw (numEnd_cons _ (by simp)))]
        simp only [skipSpace_blanks hw (noSpace_cons (c := ',') (u ++ ']' :: rest) (by decide))]
        rw [(readItems_text hs fuel (by simp at hf; omega) rest).1]
        rfl
      · obtain ⟨c, t', rfl, _, hc⟩ := docText_head h
        intro x hx
        injection hx with hx _
        exact hc hx

theorem readMembers_text {ms : List (Str × Doc)} {t : Str} : MembersText CharText ms t → ∀ fuel, t.length < fuel →
    ∀ rest, readMembers fuel (skipSpace (t ++ '}' :: rest)) = some (ms, rest) ∧
      ∀ x, skipSpace (t ++ '}' :: rest) ≠ '}' :: x
  | .one (v := v) (n := n) (w := w) (x := x) (t := t) (y := y) hv hn hw hx h hy, fuel, hf, rest => by
    match fuel, hf with
    | fuel + 1, hf =>
      have e : v ++ n ++ w ++ ':' :: x ++ t ++ y ++ '}' :: rest =
          v ++ (n ++ (w ++ ':' :: (x ++ (t ++ (y ++ '}' :: rest))))) := by simp
      have e2 : skipSpace (v ++ (n ++ (w ++ ':' :: (x ++ (t ++ (y ++ '}' :: rest)))))) =
          n ++ (w ++ ':' :: (x ++ (t ++ (y ++ '}' :: rest)))) := by
        obtain ⟨n', rfl⟩ := stringText_head hn
        exact skipSpace_blanks hv (noSpace_cons _ (by decide))
      rw [e, e2]
      refine ⟨?_, ?_⟩
      · unfold readMembers
        rw [readString_text hn]
        simp only [skipSpace_blanks hw (noSpace_cons (c := ':') (x ++ (t ++ (y ++ '}' :: rest))) (by decide)),
          skipSpace_doc hx h]
        rw [readDoc_text h fuel (by simp at hf; omega) _ (numEnd_blanks hy (numEnd_cons rest (by simp)))]
        simp only [skipSpace_blanks hy (noSpace_cons (c := '}') rest (by decide))]
      · obtain ⟨n', rfl⟩ := stringText_head hn
        intro z hz
        injection hz with hz _
        exact absurd hz (by decide)
  | .more (v := v) (n := n) (w := w) (x := x) (t := t) (y := y) (u := u) hv hn hw hx h hy hs, fuel, hf, rest => by
    match fuel, hf with
    | fuel + 1, hf =>
      have e : v ++ n ++ w ++ ':' :: x ++ t ++ y ++ ',' :: u ++ '}' :: rest =
          v ++ (n ++ (w ++ ':' :: (x ++ (t ++ (y ++ ',' :: (u ++ '}' :: rest)))))) := by simp
      have e2 : skipSpace (v ++ (n ++ (w ++ ':' :: (x ++ (t ++ (y ++ ',' :: (u ++ '}' :: rest))))))) =
          n ++ (w ++ ':' :: (x ++ (t ++ (y ++ ',' :: (u ++ '}' :: rest))))) := by
        obtain ⟨n', rfl⟩ := stringText_head hn
        exact skipSpace_blanks hv (noSpace_cons _ (by decide))
      rw [e, e2]
      refine ⟨?_, ?_⟩
      · unfold readMembers
        rw [readString_text hn]
        simp only [skipSpace_blanks hw (noSpace_cons (c := ':') (x ++ (t ++ (y ++ ',' :: (u ++ '}' :: rest)))) (by decide)),
          skipSpace_doc hx h]
        rw [readDoc_text h fuel (by simp at hf; omega) _ (numEnd_blanks hy (numEnd_cons _ (by simp)))]
        simp only [skipSpace_blanks hy (noSpace_cons (c := ',') (u ++ '}' :: rest) (by decide))]
        rw [(readMembers_text hs fuel (by simp at hf; omega) rest).1]
        rfl
      · obtain ⟨n', rfl⟩ := stringText_head hn
        intro z hz
        injection hz with hz _
        exact absurd hz (by decide)
end

end JsonRead

end Verif.Spec
