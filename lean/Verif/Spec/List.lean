/-!
# Specification: lists
-/

namespace Verif.Spec

/-- Two lists of the same length whose elements are related one by one. -/
inductive Pointwise {α β : Type} (R : α → β → Prop) : List α → List β → Prop
  | nil : Pointwise R [] []
  | cons {a b as bs} : R a b → Pointwise R as bs → Pointwise R (a :: as) (b :: bs)

end Verif.Spec
