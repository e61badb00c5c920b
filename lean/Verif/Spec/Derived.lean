import Verif.Spec.Version

/-! # Specification of the option values that follow from a package -/

namespace Verif.Spec

open Verif Str

/-- A letter or underscore followed by letters, digits and underscores. -/
def Identifier (s : Str) : Prop :=
  ∃ c t, s = c :: t ∧ (isLetter c = true ∨ c = '_') ∧
    ∀ x ∈ t, isLetter x = true ∨ isDigit x = true ∨ x = '_'

/-- The components of a package name. -/
structure PackageParts (cs : List Str) : Prop where
  nonempty : cs ≠ []
  identifiers : ∀ c ∈ cs, Identifier c

/-- The package name with these components. -/
def packageName (cs : List Str) : Str := join s%"." cs

/-- The first letter in upper case. -/
def capitalize : Str → Str
  | [] => []
  | c :: t => upperChar c :: t

/-- The initials in upper case. -/
def initials (cs : List Str) : Str := cs.filterMap fun c => c.head?.map upperChar

/-- Initials filled up with `X` to three letters; Google's own prefix `GPB` is replaced. -/
def abbreviation (s : Str) : Str :=
  if s = s%"GPB" then s%"GPX" else s ++ List.replicate (3 - s.length) 'X'

end Verif.Spec
