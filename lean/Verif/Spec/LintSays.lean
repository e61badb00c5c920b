import Verif.Spec.LintReports

/-!
# Specification: what the messages of a rule say
-/

namespace Verif.Spec

open Verif Proto Lint Str

/-- Where a failure is and what it says. -/
def placeAndText (f : Text.Failure) : Position × Str := (place f, f.message)

/-- On files with the property `ok` the rule reports failures under its name exactly at these
places of each file and with these texts, in some order; it does not crash and gives no error. -/
def SaysOn (ok : FileDescriptor → Prop) (l : Linter)
    (said : FileDescriptor → List (Position × Str)) : Prop :=
  ∀ dirPath ds, (∀ d ∈ ds, ok d) → ∃ fs, l.check dirPath ds = some (.ok fs) ∧
    (fs.map placeAndText).Perm (ds.flatMap said) ∧ ∀ f ∈ fs, f.lintID = l.id

/-- The same on all files. -/
def Says (l : Linter) (said : FileDescriptor → List (Position × Str)) : Prop :=
  SaysOn (fun _ => True) l said

/-- The rule has nothing to say about the files with this property, whatever their number. -/
def CleanOn (l : Linter) (good : FileDescriptor → Prop) : Prop :=
  ∀ dirPath ds, (∀ d ∈ ds, good d) → l.check dirPath ds = some (.ok [])

/-- The text made of these pieces. -/
def text (pieces : List Str) : Str := pieces.flatten

/-- All occurrences of `old` in `s` are replaced by `new`: what is between them stays. -/
def Replaced (old new s t : Str) : Prop :=
  ∃ between : List Str, s = join old between ∧ t = join new between ∧
    ∀ b ∈ between, ¬ old <:+: b

end Verif.Spec
