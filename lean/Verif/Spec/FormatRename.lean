import Verif.Spec.Rename
import Verif.Model.Format

/-!
# Specification: formatting a file under another name
-/

namespace Verif.Spec

open Verif

/-- The failure without the name of the file. -/
def nameless (f : Text.Failure) : Text.Failure := { f with filename := [] }

/-- Sorting looks at the elements only by comparing them. -/
def ByComparing (srt : SortSlice) : Prop :=
  ∀ {α β : Type} (f : α → β) (less : β → β → Bool) (l : List α),
    srt.run less (l.map f) = (srt.run (fun a b => less (f a) (f b)) l).map f

end Verif.Spec
