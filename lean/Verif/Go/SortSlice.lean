import Verif.Go.Str
import Verif.Proof.Order

/-!
# sort.Slice

`sort.Slice` is not stable: where equal elements end up is unspecified. A
`SortSlice` is any function that behaves as documented; a theorem for all
`SortSlice`s holds for Go's implementation.
-/

namespace Verif

/-- An implementation of `sort.Slice`: a function of the slice and the comparison that
returns a sorted rearrangement, if the comparison is a strict weak order. -/
structure SortSlice where
  run : {α : Type} → (α → α → Bool) → List α → List α
  perm : ∀ {α : Type} (less : α → α → Bool) (l : List α), (run less l).Perm l
  sorted : ∀ {α : Type} (less : α → α → Bool) (l : List α), SWO less →
    (run less l).Pairwise fun a b => less b a = false

/-- The stable sort is one implementation. -/
def SortSlice.stable : SortSlice where
  run less l := sortBy (fun a b => !less b a) l
  perm _ _ := sortBy_perm _
  sorted less l h := (sortBy_less_sorted h l).imp fun h => by simpa using h

instance : Inhabited SortSlice := ⟨SortSlice.stable⟩

end Verif
