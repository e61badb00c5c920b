import Verif.Go.JsonDecode
import Verif.Spec.Json

/-!
# What a JSON text says

The grammar of RFC 8259 as relations between values and texts. They do not refer to the reader of
the model, only to its type of values.
-/

namespace Verif.Spec

open Verif Str
open Verif.Json (Doc)
open Verif.Spec.Json (hexNumber escaped)

/-- A text of one character in a string: the character itself, an escape of two characters, its
number in four digits, or the numbers of a pair for a character outside the first plane. -/
inductive CharText : Char → Str → Prop
  | plain {c : Char} : 32 ≤ c.toNat → c ≠ '"' → c ≠ '\\' → CharText c [c]
  | short {e c : Char} : escaped e = some c → CharText c ['\\', e]
  | number {a b c d : Char} {n : Nat} : hexNumber a b c d = some n → n < 0xD800 ∨ 0xDFFF < n →
    CharText (Char.ofNat n) ['\\', 'u', a, b, c, d]
  | pair {a b c d e f g h : Char} {n m : Nat} : hexNumber a b c d = some n → hexNumber e f g h = some m →
    0xD800 ≤ n → n < 0xDC00 → 0xDC00 ≤ m → m ≤ 0xDFFF →
    CharText (Char.ofNat (0x10000 + (n - 0xD800) * 0x400 + (m - 0xDC00)))
      ['\\', 'u', a, b, c, d, '\\', 'u', e, f, g, h]

/-- The same, and half of a pair, which the grammar allows but which has no meaning. -/
inductive LooseText : Char → Str → Prop
  | char {c : Char} {t : Str} : CharText c t → LooseText c t
  | half {a b c d : Char} {n : Nat} : hexNumber a b c d = some n → 0xD800 ≤ n → n ≤ 0xDFFF →
    LooseText (Char.ofNat 0xFFFD) ['\\', 'u', a, b, c, d]

/-- The text between the quotes of a string. -/
inductive BodyText (R : Char → Str → Prop) : Str → Str → Prop
  | nil : BodyText R [] []
  | cons {c : Char} {s t u : Str} : R c t → BodyText R s u → BodyText R (c :: s) (t ++ u)

/-- The text of a string. -/
inductive StringText (R : Char → Str → Prop) : Str → Str → Prop
  | quoted {s t : Str} : BodyText R s t → StringText R s ('"' :: t ++ s%"\"")

/-- One or more digits. -/
def Digits (t : Str) : Prop := t ≠ [] ∧ ∀ c ∈ t, '0' ≤ c ∧ c ≤ '9'

/-- The text of a number. -/
structure NumberText (t : Str) : Prop where
  shape : ∃ sign int frac exp, t = sign ++ int ++ frac ++ exp ∧ (sign = [] ∨ sign = s%"-") ∧
    Digits int ∧ (int.head? = some '0' → int = s%"0") ∧
    (frac = [] ∨ ∃ ds, Digits ds ∧ frac = '.' :: ds) ∧
    (exp = [] ∨ ∃ e s ds, (e = 'e' ∨ e = 'E') ∧ (s = [] ∨ s = s%"+" ∨ s = s%"-") ∧ Digits ds ∧
      exp = e :: s ++ ds)

/-- White space between tokens. -/
def Blanks (t : Str) : Prop := ∀ c ∈ t, c = ' ' ∨ c = '\t' ∨ c = '\n' ∨ c = '\r'

mutual
/-- The text of a value. -/
inductive DocText (R : Char → Str → Prop) : Doc → Str → Prop
  | null : DocText R .null s%"null"
  | yes : DocText R (.bool true) s%"true"
  | no : DocText R (.bool false) s%"false"
  | number {t : Str} : NumberText t → DocText R (.number t) t
  | string {s t : Str} : StringText R s t → DocText R (.string s) t
  | emptyArray {w : Str} : Blanks w → DocText R (.array []) ('[' :: w ++ s%"]")
  | array {ds : List Doc} {t : Str} : ItemsText R ds t → DocText R (.array ds) ('[' :: t ++ s%"]")
  | emptyObject {w : Str} : Blanks w → DocText R (.object []) ('{' :: w ++ s%"}")
  | object {ms : List (Str × Doc)} {t : Str} : MembersText R ms t → DocText R (.object ms) ('{' :: t ++ s%"}")

/-- The text of the items of a list. -/
inductive ItemsText (R : Char → Str → Prop) : List Doc → Str → Prop
  | one {d : Doc} {v t w : Str} : Blanks v → DocText R d t → Blanks w → ItemsText R [d] (v ++ t ++ w)
  | more {d : Doc} {ds : List Doc} {v t w u : Str} : Blanks v → DocText R d t → Blanks w → ItemsText R ds u →
    ItemsText R (d :: ds) (v ++ t ++ w ++ ',' :: u)

/-- The text of the members of an object. -/
inductive MembersText (R : Char → Str → Prop) : List (Str × Doc) → Str → Prop
  | one {k : Str} {d : Doc} {v n w x t y : Str} : Blanks v → StringText R k n → Blanks w → Blanks x →
    DocText R d t → Blanks y → MembersText R [(k, d)] (v ++ n ++ w ++ ':' :: x ++ t ++ y)
  | more {k : Str} {d : Doc} {ms : List (Str × Doc)} {v n w x t y u : Str} : Blanks v → StringText R k n →
    Blanks w → Blanks x → DocText R d t → Blanks y → MembersText R ms u →
    MembersText R ((k, d) :: ms) (v ++ n ++ w ++ ':' :: x ++ t ++ y ++ ',' :: u)
end

/-- The text says that value, and nothing else. -/
def SaysDoc (text : Str) (d : Doc) : Prop :=
  ∃ v t w, Blanks v ∧ DocText CharText d t ∧ Blanks w ∧ text = v ++ t ++ w

/-- A text of that value is at the start. -/
def Begins (text : Str) (d : Doc) : Prop :=
  ∃ v t rest, Blanks v ∧ DocText LooseText d t ∧ text = v ++ t ++ rest

end Verif.Spec
