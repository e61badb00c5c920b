import Verif.Go.Keyed
import Verif.Go.SortSlice
import Verif.Model.Printer
import Verif.Model.ProtoAST
import Verif.Model.Protostrs
import Verif.Model.Text

/-!
# Model of internal/format

The visitors print into a buffer and collect failures. A method is a function from the
visitor before to the visitor after. The parser is outside: `transform` starts with the
elements of the parsed file.
-/

namespace Verif.Format

open Verif Str Proto

/-! ## base_visitor.go -/

/-- `baseVisitor`, internal/format/base_visitor.go:34-38. -/
structure Base where
  printer : Buf.Printer
  failures : List Text.Failure := []

/-- `newBaseVisitor`, internal/format/base_visitor.go:40-42. -/
def newBaseVisitor : Base := { printer := Buf.newPrinter s%"  " }

/-- `P` of the embedded printer. -/
def Base.p (args : List Str) (v : Base) : Base := { v with printer := v.printer.p args }

/-- `In` of the embedded printer. -/
def Base.in_ (v : Base) : Base := { v with printer := v.printer.in_ }

/-- `Out` of the embedded printer. -/
def Base.out (v : Base) : Base := { v with printer := v.printer.out }

/-- `AddFailure`, internal/format/base_visitor.go:44-50. All calls are without arguments to
the format. -/
def Base.addFailure (position : Position) (message : Str) (v : Base) : Base :=
  { v with failures := v.failures ++ [⟨[], position.line, position.column, [], message⟩] }

/-- `cleanCommentLine`, internal/format/base_visitor.go:203-206. -/
def cleanCommentLine (line : Str) : Str := trimLeftBy (· == '/') line

/-- The loops printing the lines of a comment, internal/format/base_visitor.go:60-62 and
:72-74. -/
def Base.pCommentLines (lines : List Str) (v : Base) : Base :=
  lines.foldl (fun v line => v.p [s%"//", cleanCommentLine line]) v

/-- `PWithInlineComment`, internal/format/base_visitor.go:52-63. -/
def Base.pWithInlineComment (inlineComment : Option Comment) (args : List Str) (v : Base) : Base :=
  match inlineComment with
  | none => v.p args
  | some c =>
    match c.lines with
    | [] => v.p args
    | line :: lines => (v.p (args ++ [s%" //", cleanCommentLine line])).pCommentLines lines

/-- `PComment`, internal/format/base_visitor.go:65-75. -/
def Base.pComment (comment : Option Comment) (v : Base) : Base :=
  match comment with
  | none => v
  | some c => v.pCommentLines c.lines

/-- `isSingleValueLiteral`, internal/format/base_visitor.go:188-191. -/
def isSingleValueLiteral (literal : Literal) : Bool :=
  literal.array.length == 0 && literal.orderedMap.length == 0

mutual

/-- `pInnerLiteral`, internal/format/base_visitor.go:150-182. -/
def pInnerLiteral (name : Str) : Literal → (suffix : Str) → Base → Base
  | .mk source isString quoteRune array orderedMap, suffix, v =>
    let pre := if name ≠ [] then name ++ s%": " else []
    if array.length = 0 ∧ orderedMap.length = 0 then
      let source := (Literal.mk source isString quoteRune [] []).sourceRepresentation
      if source ≠ [] then v.p [pre, source, suffix] else v
    else if array.length > 0 then
      ((pInnerArray array (v.p [pre, s%"["]).in_).out).p [s%"]", suffix]
    else
      ((pInnerMap orderedMap (v.p [pre, s%"{"]).in_).out).p [s%"}", suffix]

/-- The loop over an array, internal/format/base_visitor.go:164-170: a comma after every
element but the last. -/
def pInnerArray : List Literal → Base → Base
  | [], v => v
  | l :: ls, v => pInnerArray ls (pInnerLiteral [] l (if ls.length > 0 then s%"," else []) v)

/-- The loop over a map, internal/format/base_visitor.go:176-178. -/
def pInnerMap : List (Str × Literal) → Base → Base
  | [], v => v
  | l :: ls, v => pInnerMap ls (pInnerNamed l v)

/-- One turn of that loop. -/
def pInnerNamed : Str × Literal → Base → Base
  | (name, l), v => pInnerLiteral name l [] v

end

/-- One turn of the loop of `pOptions`, internal/format/base_visitor.go:117-145. -/
def Base.pOption (pre suffix : Str) (o : Opt) (v : Base) : Base :=
  let v := v.pComment o.comment
  if isSingleValueLiteral o.constant then
    let source := o.constant.sourceRepresentation
    if source ≠ [] then
      v.pWithInlineComment o.inlineComment [pre, o.name, s%" = ", source, suffix]
    else v
  else if o.constant.array.length > 0 then
    { v with failures := v.failures ++ [⟨o.position.filename, o.position.line, o.position.column,
        s%"INVALID_PROTOBUF",
        s%"top-level options should never be arrays, this should not compile with protoc"⟩] }
  else
    (pInnerMap o.constant.orderedMap (v.p [pre, o.name, s%" = {"]).in_).out.pWithInlineComment
      o.inlineComment [s%"}", suffix]

/-- The loop of `pOptions`, internal/format/base_visitor.go:116-146. Field options have a
comma after every option but the last. -/
def Base.pOptionsLoop (isFieldOption : Bool) : List Opt → Base → Base
  | [], v => v
  | o :: os, v =>
    let pre := if isFieldOption then [] else s%"option "
    let suffix := if isFieldOption then (if os.length > 0 then s%"," else []) else s%";"
    pOptionsLoop isFieldOption os (v.pOption pre suffix o)

/-- `pOptions`, internal/format/base_visitor.go:107-147. -/
def Base.pOptions (srt : SortSlice) (isFieldOption : Bool) (options : List Opt) (v : Base) : Base :=
  v.pOptionsLoop isFieldOption (srt.run (fun a b => lt a.name b.name) options)

/-- `pMessageOrEnumField`, internal/format/base_visitor.go:82-105. -/
def Base.pMessageOrEnumField (srt : SortSlice) (pre fieldName fieldType : Str) (fieldTag : Int)
    (comment inlineComment : Option Comment) (options : List Opt) (v : Base) : Base :=
  let fieldType := if fieldType ≠ [] then fieldType ++ s%" " else fieldType
  let v := v.pComment comment
  let multi :=
    (((v.p [pre, fieldType, fieldName, s%" = ", itoa fieldTag, s%" ["]).in_.pOptions srt true
      options).out).pWithInlineComment inlineComment [s%"];"]
  match options with
  | [] =>
    v.pWithInlineComment inlineComment [pre, fieldType, fieldName, s%" = ", itoa fieldTag, s%";"]
  | [o] =>
    if isSingleValueLiteral o.constant ∧ o.constant.sourceRepresentation ≠ [] then
      v.pWithInlineComment inlineComment
        [pre, fieldType, fieldName, s%" = ", itoa fieldTag, s%" [", o.name, s%" = ",
          o.constant.sourceRepresentation, s%"];"]
    else multi
  | _ => multi

/-- `PField`, internal/format/base_visitor.go:184-186. -/
def Base.pField (srt : SortSlice) (pre fieldType : Str) (field : Field) (v : Base) : Base :=
  v.pMessageOrEnumField srt pre field.name fieldType field.sequence field.comment
    field.inlineComment field.options

/-- The options among the elements of a node. For an RPC the library collects them in
`Options` as it adds them to `Elements`. -/
def optionsAmong (elements : List Element) : List Opt :=
  elements.filterMap fun
    | .option o => some o
    | _ => none

/-- `PEnumField`, internal/format/base_visitor.go:193-201. -/
def Base.pEnumField (srt : SortSlice) (f : EnumField) (elements : List Element) (v : Base) : Base :=
  v.pMessageOrEnumField srt [] f.name [] f.integer f.comment f.inlineComment
    (optionsAmong elements)

/-! ## main_visitor.go -/

/-- `mainVisitor`, internal/format/main_visitor.go:33-39, without the fields that do not
change or are restored. -/
structure Main where
  base : Base := newBaseVisitor
  haveHitNonComment : Bool := false

/-- Set `haveHitNonComment` and print. -/
def Main.hit (f : Base → Base) (v : Main) : Main :=
  { v with base := f v.base, haveHitNonComment := true }

/-- Print. -/
def Main.on (f : Base → Base) (v : Main) : Main := { v with base := f v.base }

/-- The dynamic type of `mainVisitor.parent`. -/
inductive Around where
  | none
  | enum
  | message
  | oneof
  | service
  | group
deriving DecidableEq

/-- `VisitOption`, internal/format/main_visitor.go:107-125. -/
def Base.visitOption (srt : SortSlice) (parent : Around) (o : Opt) (v : Base) : Base :=
  match parent with
  | .none => v
  | .enum | .message | .oneof | .service => v.pOptions srt false [o]
  | .group => v.addFailure o.position s%"unhandled child option"

/-- `VisitReserved`, internal/format/main_visitor.go:210-232. -/
def Base.visitReserved (r : Reserved) (v : Base) : Base :=
  if r.ranges.length > 0 ∧ r.fieldNames.length > 0 then
    v.addFailure r.position
      s%"reserved had both integer ranges and field names which is unexpected"
  else
    let v := v.pComment r.comment
    if r.ranges.length > 0 then
      v.pWithInlineComment r.inlineComment
        [s%"reserved ", join s%", " (r.ranges.map (·.sourceRepresentation)), s%";"]
    else if r.fieldNames.length > 0 then
      v.pWithInlineComment r.inlineComment
        [s%"reserved ", join s%", " (r.fieldNames.map fun n => s%"\"" ++ n ++ s%"\""), s%";"]
    else v

/-- `VisitRPC`, internal/format/main_visitor.go:234-254. -/
def Base.visitRPC (srt : SortSlice) (r : RPC) (elements : List Element) (v : Base) : Base :=
  let v := v.pComment r.comment
  let requestStream := if r.streamsRequest then s%"stream " else []
  let responseStream := if r.streamsReturns then s%"stream " else []
  let head := [s%"rpc ", r.name, s%"(", requestStream, r.requestType, s%") returns (",
    responseStream, r.returnsType]
  let options := optionsAmong elements
  if options.length = 0 then v.pWithInlineComment r.inlineComment (head ++ [s%");"])
  else (((v.p (head ++ [s%") {"])).in_.pOptions srt false options).out).pWithInlineComment
    r.inlineComment [s%"}"]

/-- `VisitExtensions`, internal/format/main_visitor.go:285-293. -/
def Base.visitExtensions (e : Extensions) (v : Base) : Base :=
  (v.pComment e.comment).pWithInlineComment e.inlineComment
    [s%"extensions ", join s%", " (e.ranges.map (·.sourceRepresentation)), s%";"]

/-- `VisitNormalField`, internal/format/main_visitor.go:132-148: the prefix. -/
def normalPrefix (isProto2 : Bool) (f : NormalField) : Str :=
  let pre := if isProto2 then (if f.required then s%"required " else s%"optional ") else []
  if f.repeated then s%"repeated " else pre

mutual

/-- `Accept` with the main visitor, internal/format/main_visitor.go:49-293. -/
def visit (srt : SortSlice) (isProto2 : Bool) (parent : Around) : Element → Main → Main
  | .comment c, v =>
    if v.haveHitNonComment then v.on fun b => (b.pComment (some c)).p [] else v
  | .syntax _, v => v.hit id
  | .package _, v => v.hit id
  | .option o, v => v.hit fun b => b.visitOption srt parent o
  | .import _, v => v.hit id
  | .message m elements, v =>
    let v := v.hit fun b => b.pComment m.comment
    let pre := if m.isExtend then s%"extend " else s%"message "
    if elements.length = 0 then v.on fun b => (b.p [pre, m.name, s%" {}"]).p []
    else
      let v := visitAll srt isProto2 .message elements
        (v.on fun b => (b.p [pre, m.name, s%" {"]).in_)
      v.on fun b => if parent = .none then (b.out.p [s%"}"]).p [] else b.out.p [s%"}"]
  | .enum e elements, v =>
    let v := v.hit fun b => b.pComment e.comment
    if elements.length = 0 then v.on fun b => (b.p [s%"enum ", e.name, s%" {}"]).p []
    else
      let v := visitAll srt isProto2 .enum elements
        (v.on fun b => (b.p [s%"enum ", e.name, s%" {"]).in_)
      v.on fun b => if parent = .none then (b.out.p [s%"}"]).p [] else b.out.p [s%"}"]
  | .enumField f elements, v => v.hit fun b => b.pEnumField srt f elements
  | .service s elements, v =>
    let v := v.hit fun b => b.pComment s.comment
    if elements.length = 0 then v.on fun b => (b.p [s%"service ", s.name, s%" {}"]).p []
    else
      let v := visitAll srt isProto2 .service elements
        (v.on fun b => (b.p [s%"service ", s.name, s%" {"]).in_)
      v.on fun b => (b.out.p [s%"}"]).p []
  | .rpc r elements, v => v.hit fun b => b.visitRPC srt r elements
  | .normalField f, v => v.hit fun b => b.pField srt (normalPrefix isProto2 f) f.field.type f.field
  | .mapField f, v => v.hit fun b =>
    b.pField srt [] (s%"map<" ++ f.keyType ++ s%", " ++ f.field.type ++ s%">") f.field
  | .oneof o elements, v =>
    let v := v.hit fun b => b.pComment o.comment
    if elements.length = 0 then v.on fun b => b.p [s%"oneof ", o.name, s%" {}"]
    else
      let v := visitAll srt isProto2 .oneof elements
        (v.on fun b => (b.p [s%"oneof ", o.name, s%" {"]).in_)
      v.on fun b => b.out.p [s%"}"]
  | .oneofField f, v => v.hit fun b => b.pField srt [] f.type f
  | .reserved r, v => v.hit fun b => b.visitReserved r
  | .extensions e, v => v.hit fun b => b.visitExtensions e
  | .group g elements, v =>
    let v := v.hit fun b => b.pComment g.comment
    let head := [if g.optional then s%"optional " else [], s%"group ", g.name, s%" = ", itoa g.sequence]
    if elements.length = 0 then v.on fun b => b.p (head ++ [s%" {}"])
    else
      let v := visitAll srt isProto2 .group elements (v.on fun b => (b.p (head ++ [s%" {"])).in_)
      v.on fun b => b.out.p [s%"}"]

/-- The loops over the elements of a node and of the file. -/
def visitAll (srt : SortSlice) (isProto2 : Bool) (parent : Around) : List Element → Main → Main
  | [], v => v
  | e :: es, v => visitAll srt isProto2 parent es (visit srt isProto2 parent e v)

end

/-! ## first_pass_visitor.go -/

/-- `FixNone`, internal/format/format.go:30 -/
abbrev fixNone : Int := 0
/-- `FixV1`, internal/format/format.go:32 -/
abbrev fixV1 : Int := 1
/-- `FixV2`, internal/format/format.go:34 -/
abbrev fixV2 : Int := 2

/-- The arguments of `newFirstPassVisitor`, internal/format/first_pass_visitor.go:56-58. -/
structure Params where
  filename : Str
  fix : Int
  fileHeader : Str
  javaPackagePrefix : Str

/-- `firstPassVisitor`, internal/format/first_pass_visitor.go:33-54, without the fields that
do not change. The field `managed name` is one of the seven option fields. -/
structure FirstPass where
  base : Base := newBaseVisitor
  syntax_ : Option Syntax := none
  package : Option Package := none
  options : List Opt := []
  imports : List Import := []
  haveHitNonComment : Bool := false
  goPackageOption : Option Opt := none
  javaMultipleFilesOption : Option Opt := none
  javaOuterClassnameOption : Option Opt := none
  javaPackageOption : Option Opt := none
  csharpNamespaceOption : Option Opt := none
  objcClassPrefixOption : Option Opt := none
  phpNamespaceOption : Option Opt := none

/-- `VisitOption`, internal/format/first_pass_visitor.go:200-230. -/
def FirstPass.visitOption (q : Params) (o : Opt) (v : FirstPass) : FirstPass :=
  let v := { v with haveHitNonComment := true }
  if q.fix ≠ fixNone then
    if o.name = s%"csharp_namespace" then { v with csharpNamespaceOption := some o }
    else if o.name = s%"go_package" then { v with goPackageOption := some o }
    else if o.name = s%"java_multiple_files" then { v with javaMultipleFilesOption := some o }
    else if o.name = s%"java_outer_classname" then { v with javaOuterClassnameOption := some o }
    else if o.name = s%"java_package" then { v with javaPackageOption := some o }
    else if o.name = s%"objc_class_prefix" then { v with objcClassPrefixOption := some o }
    else if o.name = s%"php_namespace" then { v with phpNamespaceOption := some o }
    else { v with options := v.options ++ [o] }
  else { v with options := v.options ++ [o] }

/-- `Accept` with the first pass visitor, internal/format/first_pass_visitor.go:174-286. -/
def FirstPass.visit (q : Params) (v : FirstPass) : Element → FirstPass
  | .comment c =>
    if !v.haveHitNonComment ∧ (q.fix = fixNone ∨ q.fileHeader = []) then
      { v with base := (v.base.pComment (some c)).p [] }
    else v
  | .syntax s =>
    let v := { v with haveHitNonComment := true }
    match v.syntax_ with
    | some _ => { v with base := v.base.addFailure s.position s%"duplicate syntax specified" }
    | none => { v with syntax_ := some s }
  | .package p =>
    let v := { v with haveHitNonComment := true }
    match v.package with
    | some _ => { v with base := v.base.addFailure p.position s%"duplicate package specified" }
    | none => { v with package := some p }
  | .option o => v.visitOption q o
  | .import i => { v with haveHitNonComment := true, imports := v.imports ++ [i] }
  | _ => { v with haveHitNonComment := true }

/-- `PImports`, internal/format/first_pass_visitor.go:288-305. -/
def Base.pImports (srt : SortSlice) (imports : List Import) (v : Base) : Base :=
  (srt.run (fun a b => lt a.filename b.filename) imports).foldl (fun v i =>
    (v.pComment i.comment).pWithInlineComment i.inlineComment
      [s%"import ", if i.kind ≠ [] then i.kind ++ s%" " else i.kind, s%"\"", i.filename, s%"\";"]) v

/-- An option of the given name with a new constant: the existing one, or a new one. -/
def updated (o : Option Opt) (name : Str) (constant : Literal) : Opt :=
  match o with
  | some o => { o with constant := constant }
  | none => { name := name, constant := constant }

/-- The managed options `Do` appends, internal/format/first_pass_visitor.go:80-162. -/
def FirstPass.managed (q : Params) (packageName : Str) (v : FirstPass) : List Opt :=
  [updated v.goPackageOption s%"go_package" (.str (if q.fix = fixV2 then
      Protostrs.goPackageV2 packageName else Protostrs.goPackage packageName)),
   updated v.javaMultipleFilesOption s%"java_multiple_files" (.plain s%"true"),
   updated v.javaOuterClassnameOption s%"java_outer_classname"
     (.str (Protostrs.javaOuterClassname q.filename)),
   updated v.javaPackageOption s%"java_package"
     (.str (Protostrs.javaPackagePrefixOverride packageName q.javaPackagePrefix))] ++
  (if q.fix = fixV2 then
    [updated v.csharpNamespaceOption s%"csharp_namespace"
       (.str (Protostrs.csharpNamespace packageName)),
     updated v.objcClassPrefixOption s%"objc_class_prefix"
       (.str (Protostrs.objcClassPrefix packageName)),
     updated v.phpNamespaceOption s%"php_namespace" (.str (Protostrs.phpNamespace packageName))]
  else [])

/-- The options `Do` prints, internal/format/first_pass_visitor.go:80-164. -/
def FirstPass.allOptions (q : Params) (v : FirstPass) : List Opt :=
  match v.package with
  | some p => if q.fix ≠ fixNone then v.options ++ v.managed q p.name else v.options
  | none => v.options

/-- The part of `Do` that prints the syntax, internal/format/first_pass_visitor.go:65-74. -/
def Base.pSyntax (syntax_ : Option Syntax) (v : Base) : Base :=
  match syntax_ with
  | none => v
  | some s =>
    let v := v.pComment s.comment
    let v := if s.comment.isSome then v.p [] else v
    (v.pWithInlineComment s.inlineComment [s%"syntax = \"", s.value, s%"\";"]).p []

/-- The part of `Do` that prints the package, internal/format/first_pass_visitor.go:75-79. -/
def Base.pPackage (package : Option Package) (v : Base) : Base :=
  match package with
  | none => v
  | some p =>
    ((v.pComment p.comment).pWithInlineComment p.inlineComment
      [s%"package ", p.name, s%";"]).p []

/-- `Do`, internal/format/first_pass_visitor.go:60-172. The result is the visitor with
everything printed. -/
def FirstPass.do_ (srt : SortSlice) (q : Params) (v : FirstPass) : Base :=
  let b := v.base
  let b := if q.fix ≠ fixNone ∧ q.fileHeader ≠ [] then (b.p [q.fileHeader]).p [] else b
  let b := (b.pSyntax v.syntax_).pPackage v.package
  let options := v.allOptions q
  let b := if options.length > 0 then (b.pOptions srt false options).p [] else b
  if v.imports.length > 0 then (b.pImports srt v.imports).p [] else b

/-! ## transformer.go -/

/-- The syntax version, internal/format/transformer.go:69-79: whether it is proto2. -/
def isProto2Of (syntax_ : Option Syntax) : Except Err Bool :=
  match syntax_ with
  | none => .ok true
  | some s =>
    if s.value = [] then .ok true
    else if s.value = s%"proto2" then .ok true
    else if s.value = s%"proto3" then .ok false
    else .error (s%"unknown syntax: " ++ s.value)

/-- `Transform`, internal/format/transformer.go:51-96, on the elements of the parsed file. No
text is the nil slice. -/
def transform (srt : SortSlice) (q : Params) (elements : List Element) :
    Except Err (Str × List Text.Failure) :=
  if q.fix ≠ fixNone ∧ q.fix ≠ fixV1 ∧ q.fix ≠ fixV2 then
    .error (s%"unknown format fix value: " ++ itoa q.fix)
  else
    let first := elements.foldl (fun v e => v.visit q e) ({} : FirstPass)
    let b := first.do_ srt q
    match isProto2Of first.syntax_ with
    | .error e => .error e
    | .ok isProto2 =>
      let main := visitAll srt isProto2 .none elements {}
      let failures := Text.sortFailures (b.failures ++ main.base.failures)
      let s := trimSpace (b.printer.buffer ++ main.base.printer.buffer)
      if s.length > 0 then .ok (s ++ ['\n'], failures) else .ok ([], failures)

end Verif.Format
