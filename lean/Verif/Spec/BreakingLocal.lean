import Verif.Spec.BreakingReports

/-! # Specification: schemas that agree on a package -/

namespace Verif.Spec

open Verif Reflect

/-- The two schemas agree on the package with this name: it is in both, and the same, or in neither. -/
def AlikeAt (name : Str) (a b : PackageSet) : Prop := ∀ p : Package, p.name = name → (p ∈ a ↔ p ∈ b)

/-- `mid` is a step on the way from `old` to `new` by whole packages: every package is in `mid` as it is in `old` or
as it is in `new`. -/
def Step (old mid new : PackageSet) : Prop := ∀ name, AlikeAt name old mid ∨ AlikeAt name mid new

end Verif.Spec
