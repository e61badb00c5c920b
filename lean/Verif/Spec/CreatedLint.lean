import Verif.Spec.Bare
import Verif.Spec.Create
import Verif.Spec.Managed
import Verif.Spec.Suppression
import Verif.Spec.Version

/-!
# Specification: linting created files
-/

namespace Verif.Spec

open Verif Proto Lint Str

/-- The file is one that `create` writes for the path and the package under the configuration:
it has the text, the parser finds the declarations that are in the text, and the only comments
are those of the header. -/
structure CreatedAs (uber2 : Bool) (path package : Str) (d : FileDescriptor) : Prop where
  named : s%".proto" <:+ d.filename ∧ path ≠ [] ∧ Path.base d.filename = Path.base path
  text : d.fileData =
    newText d.config.lint.fileHeader uber2 path package d.config.lint.javaPackagePrefix
  declares : bareAll d.elements = newFile [] uber2 path package d.config.lint.javaPackagePrefix
  plain : ∀ e ∈ d.elements, (∃ c, e = .comment c) ∨ commentOf e = none ∧ inlineCommentOf e = none

/-- No comment is in C style. -/
def NoCStyle (d : FileDescriptor) : Prop := ∀ c, Element.comment c ∈ d.elements → c.cstyle = false

/-- What `uber2` asks of the name of a file and of a package. -/
structure Presentable (filename package : Str) : Prop where
  file : LowerSnakeCase (fileStem filename)
  lower : PackageLowerCase package
  versioned : ∃ major beta, VersionedAs package major beta
  free : ∀ part ∈ splitChar '.' package,
    toLower part ∉ [s%"internal", s%"public", s%"private", s%"protected", s%"std"]
  meaning : ∀ word ∈ [s%"common", s%"data", s%"uuid"], ¬ word <:+: toLower package

/-- What a group asks of the names of a created file and of its header. -/
def Pleases (group package : Str) (d : FileDescriptor) : Prop :=
  (group = s%"uber2" → Presentable d.filename package ∧ NoCStyle d) ∧
  (group = s%"uber1" → d.config.lint.javaPackagePrefix ∈ [[], s%"com"] ∧
    LowerSnakeCase (package.filter (· ≠ '.')) ∧ NoCStyle d)

end Verif.Spec
