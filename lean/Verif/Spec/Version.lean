import Verif.Go.Strconv

/-! # Specification of versioned packages -/

namespace Verif.Spec

open Verif Str

/-- `s` is the decimal notation of `v`, and `v` is positive and fits in 64 bits. -/
def PositiveDecimal (s : Str) (v : Nat) : Prop :=
  s ≠ [] ∧ (∀ c ∈ s, isDigit c = true) ∧ decValue s = v ∧ 0 < v ∧ v < 2 ^ 64

/-- The package `pkg` ends in a component `vMAJOR` (then `beta = 0`) or
`vMAJORbetaBETA`, after at least one other component. -/
def VersionedAs (pkg : Str) (major beta : Nat) : Prop :=
  ∃ parent component, pkg = parent ++ s%"." ++ component ∧
    ((∃ m, component = s%"v" ++ m ∧ PositiveDecimal m major ∧ beta = 0) ∨
     (∃ m b, component = s%"v" ++ m ++ s%"beta" ++ b ∧ PositiveDecimal m major ∧
        PositiveDecimal b beta))

/-- A beta package. -/
def IsBetaPackage (pkg : Str) : Prop := ∃ major beta, VersionedAs pkg major beta ∧ 0 < beta

end Verif.Spec
