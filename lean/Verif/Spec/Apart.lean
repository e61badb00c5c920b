import Verif.Spec.Together

/-!
# Specification: programs that leave files alone
-/

namespace Verif.Spec

open Verif Exec

/-- Whatever it meets on the disk, the program changes none of these files. -/
def Leaves (mine : Str → Prop) : Prog Unit → Prop
  | .done _ => True
  | .step next k => ∀ w, (∀ path, mine path → (next w).disk path = w.disk path) ∧ Leaves mine (k w)

/-- The path is that of a file that the command is about. -/
def Mine (h : Host) (m : Meta) (path : Str) : Prop := ∃ f, Concerns h m f ∧ f.path = path

end Verif.Spec
