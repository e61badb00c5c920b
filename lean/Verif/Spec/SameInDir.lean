import Verif.Spec.LintReports

/-! # Specification: what the rules for the files of a directory report -/

namespace Verif.Spec

open Verif Proto Lint

/-- The rule reports failures under its name exactly at these places of the files of a
directory, in some order; it does not crash and gives no error. -/
def ReportsDir (l : Linter) (places : List FileDescriptor → List Position) : Prop :=
  ∀ dirPath ds, ∃ fs, l.check dirPath ds = some (.ok fs) ∧
    (fs.map place).Perm (places ds) ∧ ∀ f ∈ fs, f.lintID = l.id

/-- No two files of the directory have different values; files without value do not count. -/
def Agree (value : FileDescriptor → Option Str) (ds : List FileDescriptor) : Prop :=
  ∀ d ∈ ds, ∀ d' ∈ ds, ∀ v ∈ value d, ∀ v' ∈ value d', v = v'

instance (value : FileDescriptor → Option Str) (ds : List FileDescriptor) :
    Decidable (Agree value ds) :=
  decidable_of_iff (∀ d ∈ ds, ∀ d' ∈ ds, ∀ v ∈ (value d).toList, ∀ v' ∈ (value d').toList, v = v')
    (by simp [Agree])

/-- The name of the first package declaration. -/
def packageNameOf (d : FileDescriptor) : Option Str := (packages d).head?.map (·.name)

/-- The file options of a name. -/
def optionsNamed (name : Str) (d : FileDescriptor) : List Opt :=
  (fileOptions d).filter fun o => o.name = name

/-- The value of the first file option of a name; a file without it counts as one with the
empty value. -/
def optionValueOf (name : Str) (d : FileDescriptor) : Option Str :=
  some (((optionsNamed name d).head?.map fun o => o.constant.source).getD [])

end Verif.Spec
