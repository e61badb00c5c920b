import Verif.Model.Format
import Verif.Spec.Tree

/-!
# Specification: the layout of a formatted file

What the formatter prints for each declaration, as indented lines, without the state of the
printer. `Item.problem` stands for a failure reported instead of a declaration.
-/

namespace Verif.Spec

open Verif Str Proto Format

/-- A printed line with its indentation, or a failure. -/
inductive Item where
  | line (depth : Nat) (text : Str)
  | problem (f : Text.Failure)

/-- A line of the file: two spaces per level, no white space at the end. -/
def lineText (depth : Nat) (text : Str) : Str :=
  trimRightBy isSpace (List.replicate (2 * depth) ' ' ++ text) ++ ['\n']

/-- The text of the lines. -/
def textOf (items : List Item) : Str :=
  items.flatMap fun
    | .line depth text => lineText depth text
    | .problem _ => []

/-- The failures. -/
def problemsOf (items : List Item) : List Text.Failure :=
  items.filterMap fun
    | .line _ _ => none
    | .problem f => some f

/-- The same one level further in. -/
def nest (items : List Item) : List Item :=
  items.map fun
    | .line depth text => .line (depth + 1) text
    | .problem f => .problem f

/-- A line that is not indented. -/
abbrev flush (text : Str) : Item := .line 0 text

/-- An empty line. -/
abbrev blank : Item := flush []

/-- The lines of a comment: `//` and the line without further slashes in front. -/
def note (comment : Option Comment) : List Item :=
  match comment with
  | none => []
  | some c => c.lines.map fun l => flush (s%"//" ++ l.dropWhile (· == '/'))

/-- A line with a comment behind it. Further lines of the comment follow below. -/
def noted (text : Str) (comment : Option Comment) : List Item :=
  match comment with
  | none => [flush text]
  | some c =>
    match c.lines with
    | [] => [flush text]
    | l :: ls =>
      flush (text ++ s%" //" ++ l.dropWhile (· == '/')) ::
        ls.map fun l => flush (s%"//" ++ l.dropWhile (· == '/'))

/-- A value written on the line: neither list nor map. -/
def IsScalar (l : Literal) : Prop := l.array = [] ∧ l.orderedMap = []

instance (l : Literal) : Decidable (IsScalar l) := by
  unfold IsScalar
  exact @instDecidableAnd _ _
    (match l.array with | [] => isTrue rfl | _ :: _ => isFalse (by simp))
    (match l.orderedMap with | [] => isTrue rfl | _ :: _ => isFalse (by simp))

mutual

/-- A value inside of an aggregate value. -/
def valueItems (name suffix : Str) : Literal → List Item
  | .mk source isString quote array map =>
    let key := if name = [] then [] else name ++ s%": "
    match array, map with
    | [], [] =>
      let source := (Literal.mk source isString quote [] []).sourceRepresentation
      if source = [] then [] else [flush (key ++ source ++ suffix)]
    | a :: as, _ => flush (key ++ s%"[") :: nest (arrayItems (a :: as)) ++ [flush (s%"]" ++ suffix)]
    | [], m :: ms => flush (key ++ s%"{") :: nest (mapItems (m :: ms)) ++ [flush (s%"}" ++ suffix)]

/-- The elements of a list, separated by commas. -/
def arrayItems : List Literal → List Item
  | [] => []
  | l :: ls => valueItems [] (if ls = [] then [] else s%",") l ++ arrayItems ls

/-- The entries of an aggregate value. -/
def mapItems : List (Str × Literal) → List Item
  | [] => []
  | l :: ls => entryItems l ++ mapItems ls

/-- An entry of an aggregate value. -/
def entryItems : Str × Literal → List Item
  | (name, l) => valueItems name [] l

end

/-- An option between `pre` and `suffix`. -/
def optionItems (pre suffix : Str) (o : Opt) : List Item :=
  note o.comment ++
  if IsScalar o.constant then
    if o.constant.sourceRepresentation = [] then []
    else noted (pre ++ o.name ++ s%" = " ++ o.constant.sourceRepresentation ++ suffix) o.inlineComment
  else if o.constant.array ≠ [] then
    [.problem ⟨o.position.filename, o.position.line, o.position.column, s%"INVALID_PROTOBUF",
      s%"top-level options should never be arrays, this should not compile with protoc"⟩]
  else
    flush (pre ++ o.name ++ s%" = {") :: nest (mapItems o.constant.orderedMap) ++
      noted (s%"}" ++ suffix) o.inlineComment

/-- A statement `option … ;`. -/
def optionStatement (o : Opt) : List Item := optionItems s%"option " s%";" o

/-- Options in brackets, separated by commas. -/
def bracketed : List Opt → List Item
  | [] => []
  | o :: os => optionItems [] (if os = [] then [] else s%",") o ++ bracketed os

/-- The one option of a field is on the line of the field. -/
def onLine (options : List Opt) : Option Opt :=
  match options with
  | [o] => if IsScalar o.constant ∧ o.constant.sourceRepresentation ≠ [] then some o else none
  | _ => none

/-- A field or an enum value. `sort` puts the options in order. -/
def fieldItems (sort : List Opt → List Opt) (declaration : Str) (comment inline : Option Comment)
    (options : List Opt) : List Item :=
  note comment ++
  if options = [] then noted (declaration ++ s%";") inline
  else
    match onLine options with
    | some o => noted (declaration ++ s%" [" ++ o.name ++ s%" = " ++
        o.constant.sourceRepresentation ++ s%"];") inline
    | none =>
      flush (declaration ++ s%" [") :: nest (bracketed (sort options)) ++ noted s%"];" inline

/-- `type name = number`. -/
def declarationOf (type name : Str) (number : Int) : Str :=
  (if type = [] then [] else type ++ s%" ") ++ name ++ s%" = " ++ itoa number

/-- The label of a field. -/
def labelOf (isProto2 : Bool) (f : NormalField) : Str :=
  if f.repeated then s%"repeated "
  else if isProto2 then (if f.required then s%"required " else s%"optional ")
  else []

/-- A declaration with a body. `gap` is printed after it, `emptyGap` if there is no body. -/
def blockItems (comment : Option Comment) (head : Str) (body : Option (List Item))
    (gap emptyGap : List Item) : List Item :=
  note comment ++
  match body with
  | none => flush (head ++ s%" {}") :: emptyGap
  | some body => flush (head ++ s%" {") :: nest body ++ flush s%"}" :: gap

/-- The statement of a reserved declaration. -/
def reservedItems (r : Reserved) : List Item :=
  if r.ranges ≠ [] ∧ r.fieldNames ≠ [] then
    [.problem ⟨[], r.position.line, r.position.column, [],
      s%"reserved had both integer ranges and field names which is unexpected"⟩]
  else note r.comment ++
    if r.ranges ≠ [] then
      noted (s%"reserved " ++ join s%", " (r.ranges.map (·.sourceRepresentation)) ++ s%";")
        r.inlineComment
    else if r.fieldNames ≠ [] then
      noted (s%"reserved " ++ join s%", " (r.fieldNames.map fun n => s%"\"" ++ n ++ s%"\"") ++ s%";")
        r.inlineComment
    else []

/-- An RPC. Of what is in its body only the options are printed. -/
def rpcItems (sort : List Opt → List Opt) (r : RPC) (elements : List Element) : List Item :=
  let head := s%"rpc " ++ r.name ++ s%"(" ++ (if r.streamsRequest then s%"stream " else []) ++
    r.requestType ++ s%") returns (" ++ (if r.streamsReturns then s%"stream " else []) ++ r.returnsType
  note r.comment ++
  if optionsAmong elements = [] then noted (head ++ s%");") r.inlineComment
  else flush (head ++ s%") {") :: nest ((sort (optionsAmong elements)).flatMap optionStatement) ++
    noted s%"}" r.inlineComment

/-- An option statement inside of a declaration. -/
def innerOptionItems (around : Around) (o : Opt) : List Item :=
  match around with
  | .none => []
  | .group => [.problem ⟨[], o.position.line, o.position.column, [], s%"unhandled child option"⟩]
  | _ => optionStatement o

mutual

/-- A declaration inside of `around`. Syntax, package, imports and file options are not
printed where they are. -/
def elementItems (sort : List Opt → List Opt) (isProto2 : Bool) (around : Around) :
    Element → List Item
  | .comment c => note (some c) ++ [blank]
  | .syntax _ => []
  | .package _ => []
  | .import _ => []
  | .option o => innerOptionItems around o
  | .message m es =>
    blockItems m.comment ((if m.isExtend then s%"extend " else s%"message ") ++ m.name)
      (if es.length = 0 then none else some (elementsItems sort isProto2 .message es))
      (if around = .none then [blank] else []) [blank]
  | .enum e es =>
    blockItems e.comment (s%"enum " ++ e.name)
      (if es.length = 0 then none else some (elementsItems sort isProto2 .enum es))
      (if around = .none then [blank] else []) [blank]
  | .enumField f es =>
    fieldItems sort (declarationOf [] f.name f.integer) f.comment f.inlineComment (optionsAmong es)
  | .service s es =>
    blockItems s.comment (s%"service " ++ s.name)
      (if es.length = 0 then none else some (elementsItems sort isProto2 .service es)) [blank] [blank]
  | .rpc r es => rpcItems sort r es
  | .normalField f =>
    fieldItems sort (labelOf isProto2 f ++ declarationOf f.field.type f.field.name f.field.sequence)
      f.field.comment f.field.inlineComment f.field.options
  | .mapField f =>
    fieldItems sort (declarationOf (s%"map<" ++ f.keyType ++ s%", " ++ f.field.type ++ s%">")
      f.field.name f.field.sequence) f.field.comment f.field.inlineComment f.field.options
  | .oneof o es =>
    blockItems o.comment (s%"oneof " ++ o.name)
      (if es.length = 0 then none else some (elementsItems sort isProto2 .oneof es)) [] []
  | .oneofField f =>
    fieldItems sort (declarationOf f.type f.name f.sequence) f.comment f.inlineComment f.options
  | .reserved r => reservedItems r
  | .extensions e =>
    note e.comment ++
      noted (s%"extensions " ++ join s%", " (e.ranges.map (·.sourceRepresentation)) ++ s%";")
        e.inlineComment
  | .group g es =>
    blockItems g.comment
      ((if g.optional then s%"optional " else []) ++ s%"group " ++ g.name ++ s%" = " ++ itoa g.sequence)
      (if es.length = 0 then none else some (elementsItems sort isProto2 .group es)) [] []

/-- Declarations one after the other. -/
def elementsItems (sort : List Opt → List Opt) (isProto2 : Bool) (around : Around) :
    List Element → List Item
  | [] => []
  | e :: es => elementItems sort isProto2 around e ++ elementsItems sort isProto2 around es

end

/-! ## The file -/

/-- The declaration is a comment. -/
def isComment : Element → Bool
  | .comment _ => true
  | _ => false

/-- The syntax declarations of a file. -/
def syntaxesAmong (es : List Element) : List Syntax :=
  es.filterMap fun | .syntax s => some s | _ => none

/-- The package declarations of a file. -/
def packagesAmong (es : List Element) : List Package :=
  es.filterMap fun | .package p => some p | _ => none

/-- The imports of a file. -/
def importsAmong (es : List Element) : List Import :=
  es.filterMap fun | .import i => some i | _ => none

/-- The syntax statement, with an empty line between it and the comment above. -/
def syntaxItems : Option Syntax → List Item
  | none => []
  | some s => note s.comment ++ (if s.comment.isSome then [blank] else []) ++
      noted (s%"syntax = \"" ++ s.value ++ s%"\";") s.inlineComment ++ [blank]

/-- The package statement. -/
def packageItems : Option Package → List Item
  | none => []
  | some p => note p.comment ++ noted (s%"package " ++ p.name ++ s%";") p.inlineComment ++ [blank]

/-- The options of the file, in this order. -/
def fileOptionItems (options : List Opt) : List Item :=
  if options = [] then [] else options.flatMap optionStatement ++ [blank]

/-- An import. -/
def importItems (i : Import) : List Item :=
  note i.comment ++
    noted (s%"import " ++ (if i.kind = [] then [] else i.kind ++ s%" ") ++ s%"\"" ++ i.filename ++ s%"\";")
      i.inlineComment

/-- The imports of the file, in this order. -/
def fileImportItems (imports : List Import) : List Item :=
  if imports = [] then [] else imports.flatMap importItems ++ [blank]

/-- A second syntax or package declaration. -/
def duplicateItems (es : List Element) : List Item :=
  let rec go (hasSyntax hasPackage : Bool) : List Element → List Item
    | [] => []
    | .syntax s :: es =>
      (if hasSyntax then [.problem ⟨[], s.position.line, s.position.column, [],
        s%"duplicate syntax specified"⟩] else []) ++ go true hasPackage es
    | .package p :: es =>
      (if hasPackage then [.problem ⟨[], p.position.line, p.position.column, [],
        s%"duplicate package specified"⟩] else []) ++ go hasSyntax true es
    | _ :: es => go hasSyntax hasPackage es
  go false false es

/-- The syntax of the file is known: whether it is proto2. -/
def proto2Of (es : List Element) : Option Bool :=
  match (syntaxesAmong es).head? with
  | none => some true
  | some s =>
    if s.value = [] ∨ s.value = s%"proto2" then some true
    else if s.value = s%"proto3" then some false
    else none

/-- The sections of a formatted file: what is at the top, the syntax, the package, the
options and the imports in the given order, and the other declarations as they come. -/
def fileItems (sort : List Opt → List Opt) (isProto2 : Bool) (top : List Item)
    (options : List Opt) (imports : List Import) (es : List Element) : List Item :=
  duplicateItems es ++ top ++
  syntaxItems (syntaxesAmong es).head? ++ packageItems (packagesAmong es).head? ++
  fileOptionItems options ++ fileImportItems imports ++
  (es.dropWhile isComment).flatMap (elementItems sort isProto2 .none)

/-! ## With `--fix` -/

/-- The options `--fix` takes care of. -/
def managedNames : List Str :=
  [s%"csharp_namespace", s%"go_package", s%"java_multiple_files", s%"java_outer_classname",
   s%"java_package", s%"objc_class_prefix", s%"php_namespace"]

/-- The option of a name among the options: the last one counts. -/
def lastOption (name : Str) (options : List Opt) : Option Opt :=
  (options.filter fun o => o.name = name).getLast?

/-- The option with a value: the one there is, with its comments, or a new one. -/
def withValue (name : Str) (options : List Opt) (value : Literal) : Opt :=
  match lastOption name options with
  | some o => { o with constant := value }
  | none => { name := name, constant := value }

/-- What `--fix` puts for the managed options. -/
def managedOptions (q : Params) (package : Str) (options : List Opt) : List Opt :=
  [withValue s%"go_package" options (.str (if q.fix = fixV2 then
      Protostrs.goPackageV2 package else Protostrs.goPackage package)),
   withValue s%"java_multiple_files" options (.plain s%"true"),
   withValue s%"java_outer_classname" options (.str (Protostrs.javaOuterClassname q.filename)),
   withValue s%"java_package" options
     (.str (Protostrs.javaPackagePrefixOverride package q.javaPackagePrefix))] ++
  (if q.fix = fixV2 then
    [withValue s%"csharp_namespace" options (.str (Protostrs.csharpNamespace package)),
     withValue s%"objc_class_prefix" options (.str (Protostrs.objcClassPrefix package)),
     withValue s%"php_namespace" options (.str (Protostrs.phpNamespace package))]
  else [])

/-- The options printed. -/
def optionsOf (q : Params) (es : List Element) : List Opt :=
  if q.fix = fixNone then optionsAmong es
  else (optionsAmong es).filter (fun o => o.name ∉ managedNames) ++
    match (packagesAmong es).head? with
    | none => []
    | some p => managedOptions q p.name (optionsAmong es)

/-- What is at the top: the comments there are, or the header that replaces them. -/
def topItems (q : Params) (es : List Element) : List Item :=
  if q.fix ≠ fixNone ∧ q.fileHeader ≠ [] then [flush q.fileHeader, blank]
  else (es.takeWhile isComment).flatMap (elementItems id true .none)

/-- The text of the file: without empty lines at the beginning and the end. -/
def finish (items : List Item) : Str :=
  if trimSpace (textOf items) = [] then [] else trimSpace (textOf items) ++ ['\n']

end Verif.Spec
