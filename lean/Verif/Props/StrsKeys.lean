import Verif.Props.Strs

/-!
# C14: the keys of a map
-/

namespace Verif.Props

open Verif Str Strs Spec

/-- C14: `MapToSortedSlice` returns the keys of the map, strictly increasing, whatever the order in which the map is gone
through. -/
theorem C14_keys (o : Order) (m : List Str) (h : m.Nodup) :
    StrictlyIncreasing (mapToSortedSliceOrd o m) ∧ (∀ a, a ∈ mapToSortedSliceOrd o m ↔ a ∈ m) ∧
      mapToSortedSliceOrd o m = mapToSortedSlice m := by
  refine ⟨sortStrs_strict ((o.perm _ _).nodup_iff.mpr h), fun a => ?_, ?_⟩
  · unfold mapToSortedSliceOrd
    rw [mem_sortStrs, (o.perm _ _).mem_iff]
  · exact sortStrs_eq_of_perm ((o.perm _ _).trans (Order.id.perm _ _).symm)

example : mapToSortedSlice [s%"b", s%"a"] = [s%"a", s%"b"] := by decide

end Verif.Props
