import Verif.Spec.Attached
import Verif.Spec.Create

/-!
# A new file as it is parsed
-/

namespace Verif.Spec

open Verif Str Proto

/-- There is no header, or it is the comment with these lines. -/
def HeaderIs (header : Str) (lines : List Str) : Prop :=
  header = [] ∧ lines = [] ∨ IsHeader header lines

/-- The parser found in the file the comment with the lines of the header, if there are any, and below
it what a new file declares, without further comments and wherever it is. -/
def FoundNew (lines : List Str) (uber2 : Bool) (path package javaPrefix : Str) (es : List Element) : Prop :=
  AllSpoken es ∧
    shownAll es = shownAll (newFile (if lines = [] then [] else [remark lines]) uber2 path package javaPrefix)

/-- The two paths end in the same name. -/
def SameName (p q : Str) : Prop := p ≠ [] ∧ q ≠ [] ∧ Path.base p = Path.base q

theorem SameName.symm {p q : Str} (h : SameName p q) : SameName q p := ⟨h.2.1, h.1, h.2.2.symm⟩

end Verif.Spec
