import Verif.Go.Str

/-! # Specification vocabulary for string helpers -/

namespace Verif.Spec

open Verif Str

/-- Strictly increasing in Go's string order: sorted and without duplicates. -/
def StrictlyIncreasing (l : List Str) : Prop := l.Pairwise fun a b => Str.lt a b = true

/-- A CamelCase word such as `Foo` or `V1beta`: an upper-case letter followed by
at least one character, all of them lower-case letters or digits. -/
structure CamelWord (w : Str) : Prop where
  shape : ∃ c t, w = c :: t ∧ isUpper c = true ∧ t ≠ [] ∧
    ∀ x ∈ t, isLower x = true ∨ isDigit x = true

/-- Two strings have the same characters up to ASCII case and underscores. -/
def SameLetters (a b : Str) : Prop :=
  (a.filter (· ≠ '_')).map lowerChar = (b.filter (· ≠ '_')).map lowerChar

/-- A new word starts at `c`, with `p` before it and `rest` after it: `c` is upper
case and follows a lower case letter, or begins a run that continues with a
character that is not upper case. -/
def WordStart (p c : Char) (rest : Str) : Prop :=
  isUpper c = true ∧ (isLower p = true ∨ ∃ n ns, rest = n :: ns ∧ isUpper n = false)

end Verif.Spec
