import Verif.Spec.Additions
import Verif.Spec.Create
import Verif.Spec.Described

/-! # Specification: files among which `create` has made new ones -/

namespace Verif.Spec

open Verif Str Proto Exec Create

/-- The parser finds in the texts that `create` writes for these paths what they declare. -/
def FindsNew (ch : Create.Handler) (h : Exec.Host) (paths : List Str) : Prop :=
  ∀ p ∈ paths, ∀ c package es, getConfig ch h p = some (.ok c) →
    getPkg ch h c p (if c.lint.group = s%"uber2" then s%"uber.prototool.generated.v1"
      else s%"uber.prototool.generated") = .ok package →
    h.parse (located h p) (newText c.lint.fileHeader (c.lint.group = s%"uber2") p package c.lint.javaPackagePrefix) =
      .ok es →
    bareAll es = newFile [] (c.lint.group = s%"uber2") p package c.lint.javaPackagePrefix

/-- `create` has made the files of `made`, each given by the name that it is imported by and its path, and the other
files were there before, with content. -/
structure MadeAmong (h : Exec.Host) (paths : List Str) (disk : Disk) (files made : List (Str × Str)) : Prop where
  made : ∀ x ∈ made, ∃ p ∈ paths, x.2 = located h p
  before : ∀ x ∈ files, disk x.2 ≠ some []

end Verif.Spec
