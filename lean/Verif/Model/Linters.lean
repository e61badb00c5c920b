import Verif.Model.Visitor
import Verif.Model.Strs
import Verif.Model.Protostrs

/-!
# Model of the linters of internal/lint, part 1

Visitors whose result only depends on where a node is in the tree. Purpose texts are
left out.
-/

namespace Verif.Lint

open Verif Proto Str

/-- What the linters take from outside this package: the iteration order of maps, the
`Singularize` function of github.com/gobuffalo/flect, and the text `%v` makes of a pointer
to a node of the tree, which contains addresses. -/
structure Env where
  order : Order
  singularize : Str → Str
  showPackage : Package → Str
  showSyntax : Syntax → Str
  showOption : Opt → Str

/-- The `addCheck` function of a linter, internal/lint/base_linter.go:37: the events and
the error. -/
abbrev AddCheck := Str → List FileDescriptor → List Event × Option Err

/-- `runVisitor` on a new visitor with initial state `s`. -/
def visitWith {S : Type} (v : Visitor S) (s : S) : AddCheck := fun _ ds => (runVisitor v ds s).2

/-- A visitor that visits the children of messages. -/
abbrev kids : Act Unit → Act Unit := fun k => k

/-- `hasGolangStyleComment`, internal/lint/lint.go:534-536. -/
def hasGolangStyleComment (comment : Option Comment) (name : Str) : Bool :=
  match comment with
  | none => false
  | some c =>
    match c.lines with
    | [] => false
    | line :: _ => hasPrefix line (s%" " ++ name ++ s%" ")

/-- The first byte of the UTF-8 encoding of a character, as a rune:
`rune(firstLine[0])`, internal/lint/lint.go:550. -/
def firstByte (c : Char) : Nat :=
  if c.toNat < 0x80 then c.toNat
  else if c.toNat < 0x800 then 0xC0 + c.toNat / 64
  else if c.toNat < 0x10000 then 0xE0 + c.toNat / 4096
  else 0xF0 + c.toNat / 262144

/-- `unicode.IsUpper` on a rune below 256. -/
def isUpperByte (b : Nat) : Bool :=
  ('A'.toNat ≤ b && b ≤ 'Z'.toNat) || (0xC0 ≤ b && b ≤ 0xDE && b ≠ 0xD7)

/-- `unicode.IsDigit` on a rune below 256. -/
def isDigitByte (b : Nat) : Bool := '0'.toNat ≤ b && b ≤ '9'.toNat

/-- `commentStartsWithUppercaseLetter`, internal/lint/lint.go:542-551. -/
def commentStartsWithUppercaseLetter (comment : Option Comment) : Bool :=
  match comment with
  | none => false
  | some c =>
    match c.lines with
    | [] => false
    | line :: _ =>
      match trimSpace line with
      | [] => false
      | ch :: _ => isUpperByte (firstByte ch) || isDigitByte (firstByte ch)

/-- `commentContainsPeriod`, internal/lint/lint.go:553-565. -/
def commentContainsPeriod (comment : Option Comment) : Bool :=
  match comment with
  | none => false
  | some c => c.lines.any fun line => contains line s%"."

/-- `hasCompleteSentenceComment`, internal/lint/lint.go:538-540. -/
def hasCompleteSentenceComment (comment : Option Comment) : Bool :=
  commentStartsWithUppercaseLetter comment && commentContainsPeriod comment

/-! ## Comments -/

/-- `checkComments`, internal/lint/check_comments_no_c_style.go:142-150. -/
def checkComments (p : Position) (comments : List (Option Comment)) : Act Unit :=
  Act.emit (comments.flatMap fun comment =>
    match comment with
    | none => []
    | some c => if c.cstyle then addFailure p [s%"C-Style comments are not allowed."] else [])

/-- internal/lint/check_comments_no_c_style.go:30-150. -/
def commentsNoCStyle : Visitor Unit where
  message e k := (checkComments e.position [e.comment]).seq k
  service e k := (checkComments e.position [e.comment]).seq k
  syntax_ e := checkComments e.position [e.comment, e.inlineComment]
  package e := checkComments e.position [e.comment, e.inlineComment]
  option _ e := checkComments e.position [e.comment, e.inlineComment]
  import_ e := checkComments e.position [e.comment, e.inlineComment]
  normalField e k :=
    (checkComments e.field.position [e.field.comment, e.field.inlineComment]).seq k
  enumField _ e k := (checkComments e.position [e.comment, e.inlineComment]).seq k
  enum e k := (checkComments e.position [e.comment]).seq k
  comment e := checkComments e.position [some e]
  oneof e k := (checkComments e.position [e.comment]).seq k
  oneofField e k := (checkComments e.position [e.comment, e.inlineComment]).seq k
  reserved e := checkComments e.position [e.comment, e.inlineComment]
  rpc e k := (checkComments e.position [e.comment, e.inlineComment]).seq k
  mapField e k :=
    (checkComments e.field.position [e.field.comment, e.field.inlineComment]).seq k
  group e k := (checkComments e.position [e.comment]).seq k
  extensions e := checkComments e.position [e.comment, e.inlineComment]

/-- `checkInlineComment`, internal/lint/check_comments_no_inline.go:131-135. -/
def checkInlineComment (t : Str) (inlineComment : Option Comment) : Act Unit :=
  Act.emit (match inlineComment with
    | none => []
    | some c => addFailure c.position
        [s%"Inline comments are not allowed on ", t, s%", only comment above the type."])

/-- internal/lint/check_comments_no_inline.go:28-135. -/
def commentsNoInline : Visitor Unit where
  message _ k := k
  service _ k := k
  syntax_ e := checkInlineComment s%"syntax" e.inlineComment
  package e := checkInlineComment s%"packages" e.inlineComment
  option _ e := checkInlineComment s%"options" e.inlineComment
  import_ e := checkInlineComment s%"imports" e.inlineComment
  normalField e k := (checkInlineComment s%"fields" e.field.inlineComment).seq k
  enumField _ e k := (checkInlineComment s%"enum values" e.inlineComment).seq k
  enum _ k := k
  oneof _ k := k
  oneofField e k := (checkInlineComment s%"oneofs" e.inlineComment).seq k
  reserved e := checkInlineComment s%"reserved" e.inlineComment
  rpc e k := (checkInlineComment s%"RPCs" e.inlineComment).seq k
  mapField e k := (checkInlineComment s%"fields" e.field.inlineComment).seq k
  group _ k := k
  extensions e := checkInlineComment s%"extensions" e.inlineComment

/-! ## Enums -/

/-- internal/lint/check_enum_field_names_upper_snake_case.go:29-59. -/
def enumFieldNamesUpperSnakeCase : Visitor Unit where
  message _ k := k
  enum _ k := k
  enumField _ f _ := Act.emit (if !Strs.isUpperSnakeCase f.name then
    addFailure f.position [s%"Field name ", quote f.name, s%" must be UPPER_SNAKE_CASE."] else [])

/-- internal/lint/check_enum_field_names_uppercase.go:29-59. -/
def enumFieldNamesUppercase : Visitor Unit where
  message _ k := k
  enum _ k := k
  enumField _ f _ := Act.emit (if !Strs.isUppercase f.name then
    addFailure f.position [s%"Field name ", quote f.name, s%" must be uppercase."] else [])

/-- The methods that keep `nestedNames`: push, visit the children, pop. -/
def nested (name : Str) (k : Act (List Str)) : Act (List Str) := fun names =>
  let r := k (names ++ [Strs.toUpperSnakeCase name])
  (r.1.take (r.1.length - 1), r.2)

/-- internal/lint/check_enum_field_prefixes.go:31-68. -/
def enumFieldPrefixes : Visitor (List Str) where
  message m k := nested m.name k
  enum e k := nested e.name k
  enumField _ f _ := fun nestedNames =>
    let expectedPrefix := join s%"_" nestedNames ++ s%"_"
    (nestedNames, if !hasPrefix f.name expectedPrefix then
      addFailure f.position
        [s%"Enum field ", quote f.name, s%" is expected to have the prefix ",
         quote expectedPrefix, s%"."] else [])

/-- The type assertion `parent.(*proto.Enum)` followed by the use of the enum: if the
parent is not an enum, a failure is added and then a nil pointer is read. -/
def withEnumParent (p : Parent) (f : EnumField) (use : Enum → List Event) : List Event :=
  match p with
  | .enum e => use e
  | _ => addFailure f.position
      [s%"System error. Enum field ", quote f.name, s%" has no enum parent."] ++ [.panic]

/-- internal/lint/check_enum_field_prefixes_except_message.go:31-70. -/
def enumFieldPrefixesExceptMessage : Visitor Unit where
  message _ k := k
  enum _ k := k
  enumField p f _ := Act.emit (withEnumParent p f fun enum =>
    let expectedPrefix := Strs.toUpperSnakeCase enum.name ++ s%"_"
    if !hasPrefix f.name expectedPrefix then
      addFailure f.position
        [s%"Enum field ", quote f.name, s%" is expected to have the prefix ",
         quote expectedPrefix, s%"."] else [])

/-- internal/lint/check_enum_fields_have_comments.go:28-59. -/
def enumFieldsHaveComments : Visitor Unit where
  message _ k := k
  enum _ k := k
  enumField _ f _ := Act.emit (if !hasGolangStyleComment f.comment f.name then
    addFailure f.position [s%"Enum field ", quote f.name,
      s%" needs a comment of the form \"// ", f.name, s%" ...\""] else [])

/-- internal/lint/check_enum_fields_have_sentence_comments.go:28-59. -/
def enumFieldsHaveSentenceComments : Visitor Unit where
  message _ k := k
  enum _ k := k
  enumField _ f _ := Act.emit (if !hasCompleteSentenceComment f.comment then
    addFailure f.position [s%"Enum field ", quote f.name, s%" needs a comment with a complete sentence that starts on the first line of the comment."] else [])

/-- internal/lint/check_enum_names_camel_case.go:29-54. -/
def enumNamesCamelCase : Visitor Unit where
  message _ k := k
  enum e _ := Act.emit (if !Strs.isCamelCase e.name then
    addFailure e.position [s%"Enum name ", quote e.name, s%" must be CamelCase."] else [])

/-- internal/lint/check_enum_names_capitalized.go:29-54. -/
def enumNamesCapitalized : Visitor Unit where
  message _ k := k
  enum e _ := Act.emit (if !Strs.isCapitalized e.name then
    addFailure e.position [s%"Enum name ", quote e.name, s%" must be capitalized."] else [])

/-- internal/lint/check_enum_zero_values_invalid.go:31-70. -/
def enumZeroValuesInvalid : Visitor (List Str) where
  message m k := nested m.name k
  enum e k := nested e.name k
  enumField _ f _ := fun nestedNames =>
    (nestedNames, if f.integer = 0 then
      let expectedName := join s%"_" nestedNames ++ s%"_INVALID"
      if f.name ≠ expectedName then
        addFailure f.position
          [s%"Zero value enum field ", quote f.name, s%" is expected to have the name ",
           quote expectedName, s%"."] else []
      else [])

/-- internal/lint/check_enum_zero_values_invalid_except_message.go:29-70. -/
def enumZeroValuesInvalidExceptMessage : Visitor Unit where
  message _ k := k
  enum _ k := k
  enumField p f _ := Act.emit (if f.integer = 0 then
      withEnumParent p f fun enum =>
        let expectedName := Strs.toUpperSnakeCase enum.name ++ s%"_INVALID"
        if f.name ≠ expectedName then
          addFailure f.position
            [s%"Zero value enum field ", quote f.name, s%" is expected to have the name ",
             quote expectedName, s%"."] else []
      else [])

/-- internal/lint/check_enums_have_comments.go:28-53. -/
def enumsHaveComments : Visitor Unit where
  message _ k := k
  enum e _ := Act.emit (if !hasGolangStyleComment e.comment e.name then
    addFailure e.position [s%"Enum ", quote e.name,
      s%" needs a comment of the form \"// ", e.name, s%" ...\""] else [])

/-- internal/lint/check_enums_have_sentence_comments.go:28-53. -/
def enumsHaveSentenceComments : Visitor Unit where
  message _ k := k
  enum e _ := Act.emit (if !hasCompleteSentenceComment e.comment then
    addFailure e.position [s%"Enum ", quote e.name, s%" needs a comment with a complete sentence that starts on the first line of the comment."] else [])

/-- internal/lint/check_enums_no_allow_alias.go:28-66. -/
def enumsNoAllowAlias : Visitor Unit where
  message _ k := k
  enum _ k := k
  option p o := Act.emit (match p with
    | .enum _ =>
      if o.name = s%"allow_alias" then
        addFailure o.position [s%"Enum aliases are not allowed."] else []
    | _ => [])

/-! ## Reserved fields -/

/-- internal/lint/check_fields_not_reserved.go:30-81. The visitor is passed by value, so the stack of names a
child sees ends with its parent and the change is not seen outside. -/
def fieldsNotReserved : Visitor (List Str) where
  message m k := fun outer => (outer, (k (outer ++ [m.name])).2)
  enum e k := fun outer => (outer, (k (outer ++ [e.name])).2)
  reserved r := fun outer =>
    let reservedType := if r.ranges.length > 0 then s%"field numbers" else s%"field names"
    (outer, addFailure r.position [quote (join s%"." outer), s%" cannot have reserved ",
      reservedType, s%", use the deprecated field option instead."])

/-! ## Files -/

/-- internal/lint/check_file_header.go:30-51. -/
def fileHeader : Visitor Unit where
  onStart d := Act.emit (if d.config.lint.fileHeader ≠ [] then
      if !hasPrefix d.fileData d.config.lint.fileHeader then
        addFailure { filename := d.filename }
          [s%"File is expected to begin with the file header specified from the configuration file."]
      else []
    else [])

/-- `strings.TrimSuffix`. -/
def trimSuffix (s p : Str) : Str := if hasSuffix s p then s.take (s.length - p.length) else s

/-- internal/lint/check_file_names_lower_snake_case.go:32-52. -/
def fileNamesLowerSnakeCase : Visitor Unit where
  onStart d := Act.emit (
    let filename := Path.base d.filename
    if !Strs.isLowerSnakeCase (trimSuffix filename (Path.ext filename)) then
      addFailure { filename := d.filename } [s%"File name should be lower_snake_case.proto."]
    else [])

/-! ## Imports -/

/-- internal/lint/check_gogo_not_imported.go:30-50. -/
def gogoNotImported : Visitor Unit where
  import_ e := Act.emit (if hasSuffix e.filename s%"gogo.proto" then
    addFailure e.position [s%"Importing \"gogo.proto\" is not allowed."] else [])

/-- internal/lint/check_imports_not_public.go:28-48. -/
def importsNotPublic : Visitor Unit where
  import_ e := Act.emit (if e.kind = s%"public" then
    addFailure e.position [s%"Public imports are not allowed."] else [])

/-- internal/lint/check_imports_not_weak.go:28-48. -/
def importsNotWeak : Visitor Unit where
  import_ e := Act.emit (if e.kind = s%"weak" then
    addFailure e.position [s%"Weak imports are not allowed."] else [])

/-- `wkt.Filenames`, internal/wkt/wkt.go:29-43. -/
def wktFilenames : List Str :=
  [s%"google/protobuf/any.proto", s%"google/protobuf/api.proto",
   s%"google/protobuf/compiler/plugin.proto", s%"google/protobuf/descriptor.proto",
   s%"google/protobuf/duration.proto", s%"google/protobuf/empty.proto",
   s%"google/protobuf/field_mask.proto", s%"google/protobuf/source_context.proto",
   s%"google/protobuf/struct.proto", s%"google/protobuf/timestamp.proto",
   s%"google/protobuf/type.proto", s%"google/protobuf/wrappers.proto"]

/-- internal/lint/check_wkt_directly_imported.go:34-56. -/
def wktDirectlyImported (env : Env) : Visitor Unit where
  import_ e := Act.emit ((env.order.ord
      [s%"WKT_DIRECTLY_IMPORTED", e.position.filename, itoa e.position.line,
       itoa e.position.column, e.filename] wktFilenames).flatMap fun wktFilename =>
    if hasSuffix e.filename wktFilename && e.filename ≠ wktFilename then
      addFailure e.position [s%"Import ", quote e.filename, s%" is a Well-Known Type import but should be imported using google/protobuf as the base."]
    else [])

/-! ## Message fields -/

/-- The shape of the visitors of message fields that treat normal fields, oneof fields and
map fields alike, e.g. internal/lint/check_message_field_names_filename.go:44-66: fields
directly in messages and in their oneofs. -/
def fieldVisitor (handle : Field → List Event) : Visitor Unit where
  message _ k := k
  oneof _ k := k
  normalField f _ := Act.emit (handle f.field)
  oneofField f _ := Act.emit (handle f)
  mapField f _ := Act.emit (handle f.field)

/-- The same without map fields, e.g. internal/lint/check_message_fields_time.go:44-62. -/
def nonMapFieldVisitor (handle : Field → List Event) : Visitor Unit where
  message _ k := k
  oneof _ k := k
  normalField f _ := Act.emit (handle f.field)
  oneofField f _ := Act.emit (handle f)

/-- `strings.Replace(s, old, new, -1)` for a non-empty `old`. -/
def replaceAll (s old new : Str) : Str := join new (splitStr old s)

/-- internal/lint/check_message_field_names_filename.go:30-73. -/
def messageFieldNamesFilename : Visitor Unit := fieldVisitor fun f =>
  if contains f.name s%"file_name" then
    addFailure f.position [s%"Field name ", quote f.name, s%" should be ",
      quote (replaceAll f.name s%"file_name" s%"filename"), s%"."] else []

/-- internal/lint/check_message_field_names_filepath.go:30-73. -/
def messageFieldNamesFilepath : Visitor Unit := fieldVisitor fun f =>
  if contains f.name s%"file_path" then
    addFailure f.position [s%"Field name ", quote f.name, s%" should be ",
      quote (replaceAll f.name s%"file_path" s%"filepath"), s%"."] else []

/-- internal/lint/check_message_field_names_lower_snake_case.go:29-71. -/
def messageFieldNamesLowerSnakeCase : Visitor Unit := fieldVisitor fun f =>
  if !Strs.isLowerSnakeCase f.name then
    addFailure f.position [s%"Field name ", quote f.name, s%" must be lower_snake_case."] else []

/-- internal/lint/check_message_field_names_lowercase.go:29-71. -/
def messageFieldNamesLowercase : Visitor Unit := fieldVisitor fun f =>
  if !Strs.isLowercase f.name then
    addFailure f.position [s%"Field name ", quote f.name, s%" must be lowercase."] else []

/-- `strings.Trim(s, "_")`. -/
def trimUnderscores (s : Str) : Str := trimRightBy (· = '_') (trimLeftBy (· = '_') s)

/-- internal/lint/check_message_field_names_no_descriptor.go:30-74. -/
def messageFieldNamesNoDescriptor : Visitor Unit := fieldVisitor fun f =>
  if trimUnderscores (toLower f.name) = s%"descriptor" then
    addFailure f.position
      [s%"Field name ", quote f.name, s%" causes a collision in Java-generated code."] else []

/-- internal/lint/check_message_fields_duration.go:30-70. -/
def messageFieldsDuration : Visitor Unit := nonMapFieldVisitor fun f =>
  if contains f.name s%"duration" && f.type ≠ s%"google.protobuf.Duration" then
    addFailure f.position
      [s%"Field ", quote f.name, s%" must be a google.protobuf.Duration."] else []

/-- internal/lint/check_message_fields_have_comments.go:28-70. -/
def messageFieldsHaveComments : Visitor Unit := fieldVisitor fun f =>
  if !hasGolangStyleComment f.comment f.name then
    addFailure f.position [s%"Message field ", quote f.name,
      s%" needs a comment of the form \"// ", f.name, s%" ...\""] else []

/-- internal/lint/check_message_fields_have_sentence_comments.go:28-70. -/
def messageFieldsHaveSentenceComments : Visitor Unit := fieldVisitor fun f =>
  if !hasCompleteSentenceComment f.comment then
    addFailure f.position [s%"Message field ", quote f.name, s%" needs a comment with a complete sentence that starts on the first line of the comment."] else []

/-- internal/lint/check_message_fields_no_json_name.go:28-72. -/
def messageFieldsNoJSONName : Visitor Unit := fieldVisitor fun f =>
  f.options.flatMap fun o =>
    if o.name = s%"json_name" then
      addFailure f.position
        [s%"Field ", quote f.name, s%" cannot have the \"json_name\" option set."] else []

/-- internal/lint/check_message_fields_time.go:30-70. -/
def messageFieldsTime : Visitor Unit := nonMapFieldVisitor fun f =>
  if contains f.name s%"time" && f.type ≠ s%"google.protobuf.Timestamp" then
    addFailure f.position
      [s%"Field ", quote f.name, s%" must be a google.protobuf.Timestamp."] else []

/-- internal/lint/check_wkt_duration_suffix.go:30-68. -/
def wktDurationSuffix : Visitor Unit := nonMapFieldVisitor fun f =>
  if f.type = s%"google.protobuf.Duration" &&
      !(f.name = s%"duration" || hasSuffix f.name s%"_duration") then
    addFailure f.position [s%"Field ", quote f.name, s%" of type \"google.protobuf.Duration\" must be \"duration\" or end in \"_duration\"."] else []

/-- internal/lint/check_wkt_timestamp_suffix.go:30-68. -/
def wktTimestampSuffix : Visitor Unit := nonMapFieldVisitor fun f =>
  if f.type = s%"google.protobuf.Timestamp" &&
      !(f.name = s%"time" || hasSuffix f.name s%"_time") then
    addFailure f.position [s%"Field ", quote f.name, s%" of type \"google.protobuf.Timestamp\" must be \"time\" or end in \"_time\"."] else []

/-! ## Messages and oneofs -/

/-- internal/lint/check_message_names_camel_case.go:29-54. -/
def messageNamesCamelCase : Visitor Unit where
  message m k := k.seq (Act.emit (if m.isExtend then [] else
    if !Strs.isCamelCase m.name then
      addFailure m.position [s%"Message name ", quote m.name, s%" must be CamelCase."] else []))

/-- internal/lint/check_message_names_capitalized.go:29-54. -/
def messageNamesCapitalized : Visitor Unit where
  message m k := k.seq (Act.emit (if m.isExtend then [] else
    if !Strs.isCapitalized m.name then
      addFailure m.position [s%"Message name ", quote m.name, s%" must be capitalized."] else []))

/-- internal/lint/check_messages_have_comments.go:28-53. -/
def messagesHaveComments : Visitor Unit where
  message m k := k.seq (Act.emit (if m.isExtend then [] else
    if !hasGolangStyleComment m.comment m.name then
      addFailure m.position [s%"Message ", quote m.name,
        s%" needs a comment of the form \"// ", m.name, s%" ...\""] else []))

/-- internal/lint/check_oneof_names_lower_snake_case.go:29-53. -/
def oneofNamesLowerSnakeCase : Visitor Unit where
  message _ k := k
  oneof o _ := Act.emit (if !Strs.isLowerSnakeCase o.name then
    addFailure o.position [s%"Oneof name ", quote o.name, s%" must be lower_snake_case."] else [])

/-! ## RPCs -/

/-- internal/lint/check_request_response_names_match_rpc.go:28-56. -/
def requestResponseNamesMatchRPC : Visitor Unit where
  service _ k := k
  rpc r _ := Act.emit (
    (if r.requestType ≠ r.name ++ s%"Request" then
      addFailure r.position [s%"Name of request type ", quote r.requestType, s%" should be ",
        quote (r.name ++ s%"Request"), s%"."] else []) ++
    (if r.returnsType ≠ r.name ++ s%"Response" then
      addFailure r.position [s%"Name of response type ", quote r.returnsType, s%" should be ",
        quote (r.name ++ s%"Response"), s%"."] else []))

/-- internal/lint/check_rpc_names_camel_case.go:29-53. -/
def rpcNamesCamelCase : Visitor Unit where
  service _ k := k
  rpc r _ := Act.emit (if !Strs.isCamelCase r.name then
    addFailure r.position [s%"RPC name ", quote r.name, s%" must be CamelCase."] else [])

/-- internal/lint/check_rpc_names_capitalized.go:29-53. -/
def rpcNamesCapitalized : Visitor Unit where
  service _ k := k
  rpc r _ := Act.emit (if !Strs.isCapitalized r.name then
    addFailure r.position [s%"RPC name ", quote r.name, s%" must be capitalized."] else [])

/-- internal/lint/check_rpcs_have_comments.go:28-52. -/
def rpcsHaveComments : Visitor Unit where
  service _ k := k
  rpc r _ := Act.emit (if !hasGolangStyleComment r.comment r.name then
    addFailure r.position [s%"RPC ", quote r.name,
      s%" needs a comment of the form \"// ", r.name, s%" ...\""] else [])

/-- internal/lint/check_rpcs_have_sentence_comments.go:28-52. -/
def rpcsHaveSentenceComments : Visitor Unit where
  service _ k := k
  rpc r _ := Act.emit (if !hasCompleteSentenceComment r.comment then
    addFailure r.position [s%"RPC ", quote r.name, s%" needs a comment with a complete sentence that starts on the first line of the comment."] else [])

/-- internal/lint/check_rpcs_no_streaming.go:28-52. -/
def rpcsNoStreaming : Visitor Unit where
  service _ k := k
  rpc r _ := Act.emit (if r.streamsRequest || r.streamsReturns then
    addFailure r.position
      [s%"RPC ", quote r.name, s%" is streaming and only unary RPCs are allowed."] else [])

/-! ## Services -/

/-- internal/lint/check_service_names_api_suffix.go:30-52. -/
def serviceNamesAPISuffix : Visitor Unit where
  service s _ := Act.emit (if !hasSuffix s.name s%"API" then
      if hasSuffix s.name s%"Service" then
        addFailure s.position [s%"Service name ", quote s.name, s%" must end with \"API\". Since it currently ends with \"Service\", this likely means replacing \"Service\" with \"API\""]
      else addFailure s.position [s%"Service name ", quote s.name, s%" must end with \"API\"."]
    else [])

/-- internal/lint/check_service_names_camel_case.go:29-47. -/
def serviceNamesCamelCase : Visitor Unit where
  service s _ := Act.emit (if !Strs.isCamelCase s.name then
    addFailure s.position [s%"Service name ", quote s.name, s%" must be CamelCase."] else [])

/-- internal/lint/check_service_names_capitalized.go:29-47. -/
def serviceNamesCapitalized : Visitor Unit where
  service s _ := Act.emit (if !Strs.isCapitalized s.name then
    addFailure s.position [s%"Service name ", quote s.name, s%" must be capitalized."] else [])

/-- internal/lint/check_services_have_comments.go:28-46. -/
def servicesHaveComments : Visitor Unit where
  service s _ := Act.emit (if !hasGolangStyleComment s.comment s.name then
    addFailure s.position [s%"Service ", quote s.name,
      s%" needs a comment of the form \"// ", s.name, s%" ...\""] else [])

/-- internal/lint/check_services_have_sentence_comments.go:28-46. -/
def servicesHaveSentenceComments : Visitor Unit where
  service s _ := Act.emit (if !hasCompleteSentenceComment s.comment then
    addFailure s.position [s%"Service ", quote s.name, s%" needs a comment with a complete sentence that starts on the first line of the comment."] else [])

end Verif.Lint
