import Verif.Spec.Attached

/-!
# Specification: files that the formatter can be run on again
-/

namespace Verif.Spec

open Verif Str Proto Format

/-- The names of the options of the file, of the options of each field, enum value and RPC, and of the
imports are distinct. -/
structure Distinguished (es : List Element) : Prop where
  options : ((optionsAmong es).map (·.name)).Nodup
  inside : ∀ l ∈ optionListsAll es, (l.map (·.name)).Nodup
  imports : ((importsAmong es).map (·.filename)).Nodup

/-- The declarations of a file with their comments, in the order in which the formatter prints them,
without positions. -/
def inOrder (srt : SortSlice) (es : List Element) : List Element :=
  shownAll (setOff (tidyFile (srt.run fun a b => lt a.name b.name)
    (srt.run fun a b => lt a.filename b.filename) es))

/-- The same file with its options and imports, and where the syntax and package statements are among
them, in another order. -/
structure Moved (a b : List Element) : Prop where
  top : a.takeWhile isComment = b.takeWhile isComment
  syntaxes : syntaxesAmong a = syntaxesAmong b
  packages : packagesAmong a = packagesAmong b
  options : (optionsAmong a).Perm (optionsAmong b)
  imports : (importsAmong a).Perm (importsAmong b)
  rest : (a.dropWhile isComment).filter staysPut = (b.dropWhile isComment).filter staysPut

/-- A file with comments in places where the formatter keeps them and with distinct names of imports
and options. With `--fix` the managed options may be repeated, there is a package, and with a header
there is no comment above the syntax statement. -/
structure Regular (q : Params) (es : List Element) : Prop where
  fits : FileFits es
  oneLine : OneLine es
  outside : AllOutside es
  short : ShortAll es
  spoken : AllSpoken es
  imports : ((importsAmong es).map (·.filename)).Nodup
  options : (((optionsAmong es).filter fun o => q.fix = fixNone ∨ o.name ∉ managedNames).map (·.name)).Nodup
  inside : ∀ l ∈ optionListsAll es, (l.map (·.name)).Nodup
  package : q.fix ≠ fixNone → packagesAmong es ≠ []
  quotable : q.fix ≠ fixNone → Quotable q.filename ∧ Quotable q.javaPackagePrefix
  header : q.fix ≠ fixNone → q.fileHeader = [] ∨
    (∃ lines, IsHeader q.fileHeader lines) ∧ ∀ s ∈ syntaxesAmong es, s.comment = none

end Verif.Spec
