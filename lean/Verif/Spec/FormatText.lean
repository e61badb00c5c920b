import Verif.Spec.Layout

/-!
# Specification: formatted text and files in order

What it means for a text to be canonical, for a text to have a line, and what a file looks like
whose declarations are in the order the formatter prints them.
-/

namespace Verif.Spec

open Verif Str Proto Format

/-! ## Text -/

/-- Empty, or one newline at the end and otherwise no white space at either end. -/
def CanonicalEnds (text : Str) : Prop :=
  text = [] ∨ ∃ c s d, text = s ++ ['\n'] ∧ s.head? = some c ∧ isSpace c = false ∧
    s.getLast? = some d ∧ isSpace d = false

/-- No line ends in white space. -/
def CleanLines (text : Str) : Prop :=
  ∀ l ∈ splitChar '\n' text, ∀ c, l.getLast? = some c → isSpace c = false

/-- The text has the line. -/
def HasLine (text line : Str) : Prop := line ∈ splitChar '\n' text

/-- The line of a statement with its comment behind it. -/
def statementLine (statement : Str) (inline : Option Comment) : Str :=
  trimRightBy isSpace
    (match inline.bind fun c => c.lines.head? with
      | none => statement
      | some l => statement ++ s%" //" ++ l.dropWhile (· == '/'))

/-- The line of a comment. -/
def commentLine (l : Str) : Str := trimRightBy isSpace (s%"//" ++ l.dropWhile (· == '/'))

/-- What a line of a comment says: the line without slashes in front and white space at the end. -/
def commentText (l : Str) : Str := trimRightBy isSpace (l.dropWhile (· == '/'))

/-! ## The strings in a file -/

def commentStrings : Option Comment → List Str
  | none => []
  | some c => c.lines

mutual

def literalStrings : Literal → List Str
  | .mk source _ quote array map => [source, [quote]] ++ arrayStrings array ++ mapStrings map

def arrayStrings : List Literal → List Str
  | [] => []
  | l :: ls => literalStrings l ++ arrayStrings ls

def mapStrings : List (Str × Literal) → List Str
  | [] => []
  | l :: ls => entryStrings l ++ mapStrings ls

def entryStrings : Str × Literal → List Str
  | (name, l) => name :: literalStrings l

end

def fieldStrings (f : Field) : List Str :=
  [f.name, f.type] ++ commentStrings f.comment ++ commentStrings f.inlineComment

/-- The strings of a node itself, without the nodes in it. -/
def stringsOf : Element → List Str
  | .comment c => c.lines
  | .syntax s => s.value :: commentStrings s.comment ++ commentStrings s.inlineComment
  | .package p => p.name :: commentStrings p.comment ++ commentStrings p.inlineComment
  | .option o => o.name :: commentStrings o.comment ++ commentStrings o.inlineComment ++
      literalStrings o.constant
  | .import i => [i.filename, i.kind] ++ commentStrings i.comment ++ commentStrings i.inlineComment
  | .message m _ => m.name :: commentStrings m.comment
  | .enum e _ => e.name :: commentStrings e.comment
  | .enumField f _ => f.name :: commentStrings f.comment ++ commentStrings f.inlineComment
  | .service s _ => s.name :: commentStrings s.comment
  | .rpc r _ => [r.name, r.requestType, r.returnsType] ++ commentStrings r.comment ++
      commentStrings r.inlineComment
  | .normalField f => fieldStrings f.field
  | .mapField f => f.keyType :: fieldStrings f.field
  | .oneof o _ => o.name :: commentStrings o.comment
  | .oneofField f => fieldStrings f
  | .reserved r => r.fieldNames ++ commentStrings r.comment ++ commentStrings r.inlineComment
  | .extensions e => commentStrings e.comment ++ commentStrings e.inlineComment
  | .group g _ => g.name :: commentStrings g.comment

/-- No string of the file contains a newline. The tokens and the lines of comments of a parsed
file never do. -/
def OneLine (es : List Element) : Prop :=
  ∀ n ∈ nodesAll [] es, ∀ s ∈ stringsOf n.self, '\n' ∉ s

/-! ## A file in order -/

/-- The declaration is printed in its place: it is no syntax, package, import or file
option. -/
def staysPut : Element → Bool
  | .syntax _ => false
  | .package _ => false
  | .option _ => false
  | .import _ => false
  | _ => true

mutual

/-- A declaration with the options of the fields, enum values and RPCs in it in order. Of the
body of an RPC or an enum value only the options stay. -/
def tidy (sort : List Opt → List Opt) : Element → Element
  | .message m es => .message m (tidyAll sort es)
  | .enum e es => .enum e (tidyAll sort es)
  | .enumField f es => .enumField f ((sort (optionsAmong es)).map .option)
  | .service s es => .service s (tidyAll sort es)
  | .rpc r es => .rpc r ((sort (optionsAmong es)).map .option)
  | .normalField f => .normalField { f with field := { f.field with options := sort f.field.options } }
  | .mapField f => .mapField { f with field := { f.field with options := sort f.field.options } }
  | .oneof o es => .oneof o (tidyAll sort es)
  | .oneofField f => .oneofField { f with options := sort f.options }
  | .group g es => .group g (tidyAll sort es)
  | .comment c => .comment c
  | .syntax s => .syntax s
  | .package p => .package p
  | .option o => .option o
  | .import i => .import i
  | .reserved r => .reserved r
  | .extensions e => .extensions e

def tidyAll (sort : List Opt → List Opt) : List Element → List Element
  | [] => []
  | e :: es => tidy sort e :: tidyAll sort es

end

/-- The file in the order of the formatter: the comments at the top, the syntax, the package,
the options and imports by name, and the other declarations as they come. -/
def tidyFile (sort : List Opt → List Opt) (sortImports : List Import → List Import)
    (es : List Element) : List Element :=
  es.takeWhile isComment ++ (syntaxesAmong es).map .syntax ++ (packagesAmong es).map .package ++
  (sort (optionsAmong es)).map .option ++ (sortImports (importsAmong es)).map .import ++
  tidyAll sort ((es.dropWhile isComment).filter staysPut)

mutual

/-- The options of the fields, enum values and RPCs in a declaration, one list for each. -/
def optionLists : Element → List (List Opt)
  | .message _ es => optionListsAll es
  | .enum _ es => optionListsAll es
  | .enumField _ es => [optionsAmong es]
  | .service _ es => optionListsAll es
  | .rpc _ es => [optionsAmong es]
  | .normalField f => [f.field.options]
  | .mapField f => [f.field.options]
  | .oneof _ es => optionListsAll es
  | .oneofField f => [f.options]
  | .group _ es => optionListsAll es
  | _ => []

def optionListsAll : List Element → List (List Opt)
  | [] => []
  | e :: es => optionLists e ++ optionListsAll es

end

/-- All the lists of options the formatter sorts: those of the file and those in it. -/
def sortedLists (es : List Element) : List (List Opt) := optionsAmong es :: optionListsAll es

/-- The file with the managed options replaced. -/
def fixedFile (q : Params) (es : List Element) : List Element :=
  es.takeWhile isComment ++ (optionsOf q es).map .option ++
    (es.dropWhile isComment).filter fun
      | .option _ => false
      | _ => true

end Verif.Spec
