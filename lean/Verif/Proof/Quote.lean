import Verif.Proof.Tokens
import Verif.Spec.BreakingReports

/-! # Quoted text can be read back -/

namespace Verif.Proof

open Verif Spec Format

/-- The value of a hexadecimal digit. -/
def hexVal (c : Char) : Nat := if c.toNat < 58 then c.toNat - 48 else c.toNat - 87

/-- Reads one character of quoted text. -/
def unquote1 : Str → Option (Char × Str)
  | '\\' :: '"' :: t => some ('"', t)
  | '\\' :: '\\' :: t => some ('\\', t)
  | '\\' :: 'a' :: t => some (Char.ofNat 7, t)
  | '\\' :: 'b' :: t => some (Char.ofNat 8, t)
  | '\\' :: 'f' :: t => some (Char.ofNat 12, t)
  | '\\' :: 'n' :: t => some ('\n', t)
  | '\\' :: 'r' :: t => some ('\r', t)
  | '\\' :: 't' :: t => some ('\t', t)
  | '\\' :: 'v' :: t => some (Char.ofNat 11, t)
  | '\\' :: 'x' :: a :: b :: t => some (Char.ofNat (16 * hexVal a + hexVal b), t)
  | '"' :: _ => none
  | c :: t => some (c, t)
  | [] => none

theorem hexVal_hexChar : ∀ d < 16, hexVal (hexChar d) = d := by decide

theorem ofNat_toNat {c : Char} {n : Nat} (h : c.toNat = n) : Char.ofNat n = c := by
  rw [← h]; exact Char.ofNat_toNat c

theorem unquote1_quoteChar (c : Char) (t : Str) : unquote1 (quoteChar c ++ t) = some (c, t) := by
  unfold quoteChar
  by_cases h1 : c = '"'
  · rw [if_pos h1, h1]; rfl
  rw [if_neg h1]
  by_cases h2 : c = '\\'
  · rw [if_pos h2, h2]; rfl
  rw [if_neg h2]
  by_cases h3 : c.toNat = 7
  · rw [if_pos h3]; exact congrArg (fun c => some (c, t)) (ofNat_toNat h3)
  rw [if_neg h3]
  by_cases h4 : c.toNat = 8
  · rw [if_pos h4]; exact congrArg (fun c => some (c, t)) (ofNat_toNat h4)
  rw [if_neg h4]
  by_cases h5 : c.toNat = 12
  · rw [if_pos h5]; exact congrArg (fun c => some (c, t)) (ofNat_toNat h5)
  rw [if_neg h5]
  by_cases h6 : c = '\n'
  · rw [if_pos h6, h6]; rfl
  rw [if_neg h6]
  by_cases h7 : c = '\r'
  · rw [if_pos h7, h7]; rfl
  rw [if_neg h7]
  by_cases h8 : c = '\t'
  · rw [if_pos h8, h8]; rfl
  rw [if_neg h8]
  by_cases h9 : c.toNat = 11
  · rw [if_pos h9]; exact congrArg (fun c => some (c, t)) (ofNat_toNat h9)
  rw [if_neg h9]
  by_cases h10 : (c.toNat < 32 || c.toNat = 127) = true
  · rw [if_pos h10]
    have hlt : c.toNat < 128 := by simp at h10; omega
    show some (Char.ofNat (16 * hexVal (hexChar (c.toNat / 16)) + hexVal (hexChar (c.toNat % 16))), t) = _
    rw [hexVal_hexChar _ (by omega), hexVal_hexChar _ (by omega)]
    exact congrArg (fun c => some (c, t)) (ofNat_toNat (by omega))
  · rw [if_neg h10]
    show unquote1 (c :: t) = _
    unfold unquote1
    split <;> simp_all

theorem unquote1_quote (t : Str) : unquote1 ('"' :: t) = none := rfl

theorem quote_append_inj {a b x y : Str} (h : quote a ++ x = quote b ++ y) : a = b ∧ x = y := by
  simp only [quote, List.append_assoc, List.append_cancel_left_eq] at h
  induction a generalizing b with
  | nil =>
    cases b with
    | nil => simpa using h
    | cons c b =>
      have := congrArg unquote1 h
      simp only [List.flatMap_cons, List.flatMap_nil, List.append_assoc, unquote1_quoteChar] at this
      cases this
  | cons c a ih =>
    cases b with
    | nil =>
      have := congrArg unquote1 h
      simp only [List.flatMap_cons, List.flatMap_nil, List.append_assoc, unquote1_quoteChar] at this
      cases this
    | cons d b =>
      have := congrArg unquote1 h
      simp only [List.flatMap_cons, List.append_assoc, unquote1_quoteChar, Option.some.injEq,
        Prod.mk.injEq] at this
      obtain ⟨h1, h2⟩ := ih this.2
      exact ⟨by rw [this.1, h1], h2⟩

theorem append_sep_inj {c : Char} {a b x y : Str} (ha : c ∉ a) (hb : c ∉ b)
    (h : a ++ c :: x = b ++ c :: y) : a = b ∧ x = y := by
  induction a generalizing b with
  | nil =>
    cases b with
    | nil => simpa using h
    | cons d b =>
      simp only [List.nil_append, List.cons_append, List.cons.injEq] at h
      exact absurd (by rw [h.1]; simp) hb
  | cons d a ih =>
    cases b with
    | nil =>
      simp only [List.nil_append, List.cons_append, List.cons.injEq] at h
      exact absurd (by rw [h.1]; simp) ha
    | cons e b =>
      simp only [List.cons_append, List.cons.injEq] at h
      obtain ⟨h1, h2⟩ := ih (fun hc => ha (by simp [hc])) (fun hc => hb (by simp [hc])) h.2
      exact ⟨by rw [h.1, h1], h2⟩

theorem itoa_inj {m n : Int} (h : itoa m = itoa n) : m = n := by
  have := congrArg readInt h
  rw [readInt_itoa, readInt_itoa] at this
  exact Option.some.inj this

theorem quotedNumber_append_inj {m n : Int} {x y : Str}
    (h : quotedNumber m ++ x = quotedNumber n ++ y) : m = n ∧ x = y := by
  simp only [quotedNumber, List.append_assoc, List.append_cancel_left_eq] at h
  have hq : ∀ n : Int, '"' ∉ itoa n := by
    intro n hn
    exact absurd ((isWord_itoa n).2 _ hn) (by decide)
  obtain ⟨h1, h2⟩ := append_sep_inj (hq m) (hq n) h
  exact ⟨itoa_inj h1, h2⟩

theorem quote_append_iff {a b x y : Str} : quote a ++ x = quote b ++ y ↔ a = b ∧ x = y :=
  ⟨quote_append_inj, fun h => by rw [h.1, h.2]⟩

theorem quotedNumber_append_iff {m n : Int} {x y : Str} :
    quotedNumber m ++ x = quotedNumber n ++ y ↔ m = n ∧ x = y :=
  ⟨quotedNumber_append_inj, fun h => by rw [h.1, h.2]⟩

theorem quote_append_cons {a x y : Str} {c : Char} (hc : c ≠ '"') : quote a ++ x ≠ c :: y := by
  intro h
  simp only [quote, List.append_assoc] at h
  exact hc (List.cons.inj h).1.symm

end Verif.Proof
