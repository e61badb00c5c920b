import Verif.Go.Str

/-!
# Go maps

A Go map is an association list with distinct keys. `range` over a map visits
the entries in an unspecified order which may differ between two loops over the
same map. An `Order` is an oracle that fixes the order for every loop of one
execution; a theorem for all `Order`s is a theorem for all executions.
-/

namespace Verif

/-- Identifies one dynamic `range` loop of an execution: the names of the
enclosing loops' elements. Distinct loops have distinct sites, so the oracle can
choose the order of each loop freely. -/
abbrev Site := List Str

/-- An iteration-order oracle. -/
structure Order where
  ord : Site → {α : Type} → List α → List α
  perm : ∀ (site : Site) {α : Type} (l : List α), (ord site l).Perm l

/-- The oracle that keeps the listed order; used where the order is proved
irrelevant. -/
def Order.id : Order := ⟨fun _ _ l => l, fun _ _ l => List.Perm.refl l⟩

/-- An oracle that reverses every loop. -/
def Order.rev : Order := ⟨fun _ _ l => l.reverse, fun _ _ l => List.reverse_perm l⟩

/-- The part of an oracle used by one call, so that two calls of a function can be
given unrelated orders. -/
def Order.sub (o : Order) (call : Str) : Order :=
  ⟨fun site _ l => o.ord (site ++ [call]) l, fun site _ l => o.perm (site ++ [call]) l⟩

instance : Inhabited Order := ⟨Order.id⟩

/-- A Go map from `κ` to `ν`. -/
abbrev GoMap (κ ν : Type) := List (κ × ν)

namespace GoMap

variable {κ ν : Type} [DecidableEq κ]

/-- `m[k]` with the `ok` flag. -/
def get? (m : GoMap κ ν) (k : κ) : Option ν := (m.find? fun p => p.1 = k).map (·.2)

/-- `m[k] = v`: replaces the value in place or adds an entry. -/
def set (m : GoMap κ ν) (k : κ) (v : ν) : GoMap κ ν :=
  match m with
  | [] => [(k, v)]
  | p :: ps => if p.1 = k then (k, v) :: ps else p :: set ps k v

/-- `delete(m, k)`. -/
def delete (m : GoMap κ ν) (k : κ) : GoMap κ ν := m.filter fun p => p.1 ≠ k

/-- The keys of the map. -/
def keys (m : GoMap κ ν) : List κ := m.map (·.1)

end GoMap

/-- A Go `map[string]struct{}`: a list of distinct strings. `m[k] = struct{}{}`. -/
def setInsert {κ : Type} [DecidableEq κ] (m : List κ) (k : κ) : List κ :=
  if k ∈ m then m else m ++ [k]

end Verif
