import Verif.Go.Map

/-!
# Go maps whose key is a field of the value

Many maps of the code map a name (number) to an object carrying that name
(number). Such a map is a list of objects with distinct keys.
-/

namespace Verif

variable {α κ : Type} [DecidableEq κ]

/-- `m[key a] = a`. -/
def kset (key : α → κ) : List α → α → List α
  | [], a => [a]
  | x :: xs, a => if key x = key a then a :: xs else x :: kset key xs a

/-- `m[k]` with the `ok` flag. -/
def kget (key : α → κ) (m : List α) (k : κ) : Option α := m.find? fun x => key x = k

/-- The map filled by `for _, a := range l { m[key a] = a }`: later elements replace
earlier ones with the same key. -/
def kmap (key : α → κ) (l : List α) : List α := l.foldl (kset key) []

/-- A Go error, modelled by its text. -/
abbrev Err := Str

/-- The error of a result, if it is one. -/
def errOf {β : Type} : Except Err β → Option Err
  | .error e => some e
  | .ok _ => none

/-- The value of a result, if it is one. -/
def okOf {β : Type} : Except Err β → Option β
  | .error _ => none
  | .ok b => some b

/-- A loop over a map whose body may return an error: the bodies' results are
visited in the order of the oracle, the first error aborts; otherwise the results
are returned in the listed order, as the values of a map. -/
def mapLoop {β : Type} (o : Order) (site : Site) (rs : List (Except Err β)) :
    Except Err (List β) :=
  match (o.ord site rs).findSome? errOf with
  | some e => .error e
  | none => .ok (rs.filterMap okOf)

end Verif
