import Verif.Model.Linters

/-!
# Model of the linters of internal/lint, part 2

Linters that can be suppressed, and visitors that keep state while they visit a file.
-/

namespace Verif.Lint

open Verif Proto Str

/-! ## Linters that can be suppressed

Their state holds the configuration of the proto set of the current file, nil before
`OnStart`. -/

/-- `baseAddSuppressableVisitor.OnStart`, internal/lint/base_visitor.go:78-81. -/
def startSuppressable (d : FileDescriptor) : Act (Option Settings.Config) :=
  Act.modify fun _ => some d.config

/-- Failures added through `v.fileDescriptor.ProtoSet`,
internal/lint/base_visitor.go:83-85. -/
def suppressable (fs : Settings.Config → List Event) : Act (Option Settings.Config) := fun s =>
  (s, match s with
    | none => [.panic]
    | some c => fs c)

/-- `checkNotFloat`, internal/lint/check_message_fields_not_floats.go:68-73. -/
def checkNotFloat (f : Field) : Act (Option Settings.Config) :=
  if f.type = s%"float" then
    suppressable fun c => addSuppressable c f.comment f.position [s%"Field ", quote f.name, s%" is a float and floats should generally not be used, consider using a double, or an int64 while representing your value in micros or nanos."]
  else Act.skip

/-- internal/lint/check_message_fields_not_floats.go:29-73. -/
def messageFieldsNotFloats : Visitor (Option Settings.Config) where
  onStart := startSuppressable
  message _ k := k
  oneof _ k := k
  normalField f _ := checkNotFloat f.field
  oneofField f _ := checkNotFloat f
  mapField f _ := checkNotFloat f.field

/-- `checkName`, internal/lint/check_names.go:177-181. -/
def checkName (outlawedName additionalHelp : Str) (p : Position) (name : Str)
    (comment : Option Comment) : Act (Option Settings.Config) :=
  if contains (toLower name) outlawedName then
    suppressable fun c => addSuppressable c comment p [s%"The name ", quote name,
      s%" contains the outlawed name ", quote outlawedName, s%". ", additionalHelp, s%"."]
  else Act.skip

/-- `namesVisitor.VisitReserved`, internal/lint/check_names.go:146-150. -/
def checkNames (outlawedName additionalHelp : Str) (p : Position) (comment : Option Comment) :
    List Str → Act (Option Settings.Config)
  | [] => Act.skip
  | n :: ns =>
    (checkName outlawedName additionalHelp p n comment).seq
      (checkNames outlawedName additionalHelp p comment ns)

/-- `namesVisitor`, internal/lint/check_names.go:60-181. -/
def names (w h : Str) : Visitor (Option Settings.Config) where
  onStart := startSuppressable
  message e k := (checkName w h e.position e.name e.comment).seq k
  service e k := (checkName w h e.position e.name e.comment).seq k
  package e := checkName w h e.position e.name e.comment
  option _ e := checkName w h e.position e.name e.comment
  normalField e k := (checkName w h e.field.position e.field.name e.field.comment).seq k
  enumField _ e k := (checkName w h e.position e.name e.comment).seq k
  enum e k := (checkName w h e.position e.name e.comment).seq k
  oneof e k := (checkName w h e.position e.name e.comment).seq k
  oneofField e k := (checkName w h e.position e.name e.comment).seq k
  reserved e := checkNames w h e.position e.comment e.fieldNames
  rpc e k := (checkName w h e.position e.name e.comment).seq k
  mapField e k := (checkName w h e.field.position e.field.name e.field.comment).seq k
  group e k := (checkName w h e.position e.name e.comment).seq k

/-- `namesNoCommonLinter`, internal/lint/check_names.go:34-37. -/
def namesNoCommon : Visitor (Option Settings.Config) :=
  names s%"common" s%"Common has no semantic meaning, consider using a name that reflects the type instead."

/-- `namesNoDataLinter`, internal/lint/check_names.go:38-41. -/
def namesNoData : Visitor (Option Settings.Config) :=
  names s%"data" s%"Data is a decorator and all types on Protobuf are data, consider merging this information into a higher-level type, or if you must have such a type, Use \"Info\" instead."

/-- `namesNoUUIDLinter`, internal/lint/check_names.go:42-45. -/
def namesNoUUID : Visitor (Option Settings.Config) :=
  names s%"uuid" s%"UUIDs in Protobuf are named ID instead of UUID."

/-- `packageNoKeywordsKeywords`, internal/lint/check_package_no_keywords.go:33-39. -/
def keywords : List Str := [s%"internal", s%"public", s%"private", s%"protected", s%"std"]

/-- internal/lint/check_package_no_keywords.go:32-73. -/
def packageNoKeywords : Visitor (Option Settings.Config) where
  onStart := startSuppressable
  package pkg := fun s =>
    (s, (splitChar '.' pkg.name).flatMap fun subPackage =>
      let potentialKeyword := toLower subPackage
      if potentialKeyword ∈ keywords then
        (suppressable (fun c => addSuppressable c pkg.comment pkg.position [s%"Package ",
          quote pkg.name, s%" contains the keyword ", quote potentialKeyword,
          s%", this could cause problems in generated code."]) s).2
      else [])

/-- The state of `rpcOptionsNoGoogleAPIHTTPVisitor`,
internal/lint/check_rpc_options_no_google_api_http.go:42-46. -/
structure HTTPState where
  config : Option Settings.Config := none
  rpc : Option RPC := none

/-- internal/lint/check_rpc_options_no_google_api_http.go:31-73. In Go `&&` binds closer than `||`, so the
second form of the name is tested without the guard that `v.rpc` is not nil. -/
def rpcOptionsNoGoogleAPIHTTP : Visitor HTTPState where
  onStart d := Act.modify fun _ => ⟨some d.config, none⟩
  service _ k := k
  rpc r k := fun s =>
    let t := k { s with rpc := some r }
    ({ t.1 with rpc := none }, t.2)
  option _ o := fun s =>
    (s, if (s.rpc.isSome && hasPrefix o.name s%"(google.api.http)") ||
          hasPrefix o.name s%"(.google.api.http)" then
        match s.config, s.rpc with
        | some c, some r => addSuppressable c r.comment o.position [s%"Option \"google.api.http\" is not allowed. This option signifies HTTP/REST usage, use the RPC framework instead."]
        | _, _ => [.panic]
      else [])

/-- `isAllowedServiceNamePlural`, internal/lint/check_service_names_singular.go:63-73. -/
def isAllowedServiceNamePlural (word : Str) : Bool :=
  toUpper word = word || toLower word = s%"data"

/-- internal/lint/check_service_names_singular.go:33-73. -/
def serviceNamesNoPlurals (env : Env) : Visitor (Option Settings.Config) where
  onStart := startSuppressable
  service e _ := fun s =>
    (s, (Strs.splitCamelCaseWord e.name).flatMap fun word =>
      let wordLowerCase := toLower word
      let singular := env.singularize wordLowerCase
      if singular ≠ wordLowerCase then
        if !isAllowedServiceNamePlural word then
          (suppressable (fun c => addSuppressable c e.comment e.position [s%"Service name ",
            quote e.name, s%" contains plural component ", quote (title word),
            s%", consider using ", quote (title singular), s%" instead."]) s).2
        else []
      else [])

/-! ## File options -/

/-- The state of `fileOptionsEqualVisitor`,
internal/lint/check_file_options_equal.go:113-122. -/
structure EqualState where
  descriptor : Option FileDescriptor := none
  pkg : Option Package := none
  option : Option Opt := none

/-- `fileOptionsEqualVisitor`, internal/lint/check_file_options_equal.go:103-160. The error
shows the descriptor, with addresses; the model leaves that part out. -/
def fileOptionsEqual (fileOption : Str) (expectedValue : FileDescriptor → Package → Str) :
    Visitor EqualState where
  onStart d := Act.modify fun _ => ⟨some d, none, none⟩
  package p := Act.modify fun s => { s with pkg := some p }
  option _ o := Act.modify fun s => if o.name = fileOption then { s with option := some o } else s
  finally_ s :=
    match s.descriptor, s.pkg, s.option with
    | some d, some pkg, some option =>
      if d.filename = [] then
        (s, [], some s%"expected filename to be set for descriptor in checkFileOptionsEqual linter")
      else
        let value := option.constant.source
        let expected := expectedValue d pkg
        (s, if expected ≠ value then
            addFailure option.position [s%"Expected ", quote expected, s%" for option ",
              quote option.name, s%" but was ", quote value, s%"."]
          else [], none)
    | _, _, _ => (s, [], none)

/-- The state of `fileOptionsRequireVisitor`,
internal/lint/check_file_options_required.go:87-94. -/
structure RequireState where
  filename : Str := []
  seen : Bool := false

/-- `fileOptionsRequireVisitor`, internal/lint/check_file_options_required.go:78-114. -/
def fileOptionsRequire (fileOption : Str) : Visitor RequireState where
  onStart d := Act.modify fun _ => ⟨d.filename, false⟩
  option _ o := Act.modify fun s => if o.name = fileOption then { s with seen := true } else s
  finally_ s := (s, if !s.seen then
      addFailure { filename := s.filename }
        [s%"File option ", quote fileOption, s%" is required."]
    else [], none)

/-- The state of `fileOptionsUnsetVisitor`,
internal/lint/check_file_options_unset.go:51-58. -/
structure UnsetState where
  seen : Bool := false
  position : Position := { filename := [] }

/-- `fileOptionsUnsetVisitor`, internal/lint/check_file_options_unset.go:42-79. -/
def fileOptionsUnset (fileOption : Str) : Visitor UnsetState where
  onStart _ := Act.modify fun _ => {}
  option _ o := Act.modify fun s => if o.name = fileOption then ⟨true, o.position⟩ else s
  finally_ s := (s, if s.seen then
      addFailure s.position [s%"File option ", quote fileOption, s%" should not be set."]
    else [], none)

/-- The state of `fileOptionsSameInDirVisitor`,
internal/lint/check_file_options_same_in_dir.go:98-106. -/
structure OptionSameState where
  values : List Str := []
  option : Option Opt := none

/-- `fileOptionsSameInDirVisitor`,
internal/lint/check_file_options_same_in_dir.go:98-131. -/
def fileOptionsSameInDirVisitor (env : Env) (fileOption : Str) : Visitor OptionSameState where
  onStart _ := Act.modify fun s => { s with option := none }
  option _ o := fun s =>
    if o.name = fileOption then
      match s.option with
      | some first => (s, addFailure o.position [s%"multiple option declarations for ",
          fileOption, s%", first was ", env.showOption first])
      | none => ({ s with option := some o }, [])
    else (s, [])
  finally_ s :=
    let value := match s.option with
      | some o => o.constant.source
      | none => []
    ({ s with values := setInsert s.values value }, [], none)

/-- `newCheckFileOptionsSameInDir`,
internal/lint/check_file_options_same_in_dir.go:68-96. -/
def fileOptionsSameInDir (env : Env) (fileOption : Str) : AddCheck := fun dirPath ds =>
  match runVisitor (fileOptionsSameInDirVisitor env fileOption) ds {} with
  | (_, es, some err) => (es, some err)
  | (s, es, none) =>
    if s.values.length > 1 then
      if [] ∈ s.values then
        (es ++ ds.flatMap fun d => addFailure { filename := d.filename } [s%"File option ",
          quote fileOption, s%" set in some files in directory but not in others."], none)
      else
        let slice := sortStrs (env.order.ord [s%"FILE_OPTIONS_SAME_IN_DIR", dirPath, fileOption] s.values)
        (es ++ ds.flatMap fun d => addFailure { filename := d.filename }
          [s%"Multiple values for file option ", quote fileOption, s%" in directory: ",
           join s%", " slice, s%"."], none)
    else (es, none)

/-- internal/lint/check_go_package_not_long_form.go:30-66. -/
def fileOptionsGoPackageNotLongForm : Visitor (Option Opt) where
  onStart _ := Act.modify fun _ => none
  option _ o := Act.modify fun s => if o.name = s%"go_package" then some o else s
  finally_ s := (s, match s with
    | none => []
    | some o => if contains o.constant.source s%";" then
        addFailure o.position [s%"Option \"go_package\" cannot be of the long-form \"go/import/path;package\" and must only be of the short-form \"package\", but was ", quote o.constant.source, s%"."]
      else [], none)

/-! ## Packages and syntax -/

/-- The state of the visitors of the package declaration, e.g.
internal/lint/check_package_is_declared.go:40-45. -/
structure PkgState where
  filename : Str := []
  pkg : Option Package := none

/-- The common part of these visitors, e.g.
internal/lint/check_package_is_declared.go:36-60. -/
def packageVisitor (env : Env) (finish : Str → Option Package → List Event) : Visitor PkgState where
  onStart d := Act.modify fun _ => ⟨d.filename, none⟩
  package p := fun s =>
    match s.pkg with
    | some first => (s, addFailure p.position
        [s%"multiple package declarations, first was ", env.showPackage first])
    | none => ({ s with pkg := some p }, [])
  finally_ s := (s, finish s.filename s.pkg, none)

/-- The failure of the linters that need a package declaration, e.g.
internal/lint/check_package_is_declared.go:63. -/
def noPackage (filename : Str) : List Event :=
  addFailure { filename := filename } [s%"No package declaration found."]

/-- internal/lint/check_package_is_declared.go:30-67. -/
def packageIsDeclared (env : Env) : Visitor PkgState := packageVisitor env fun filename pkg =>
  match pkg with
  | none => noPackage filename
  | some _ => []

/-- `isPackageLowerCase`, internal/lint/check_package_lower_case.go:68-75. -/
def isPackageLowerCase (packageName : Str) : Bool := packageName.all fun r =>
  ('a' ≤ r && r ≤ 'z') || ('0' ≤ r && r ≤ '9') || r = '.'

/-- internal/lint/check_package_lower_case.go:28-75. -/
def packageLowerCase (env : Env) : Visitor PkgState := packageVisitor env fun _ pkg =>
  match pkg with
  | none => []
  | some p => if !isPackageLowerCase p.name then
      addFailure p.position [s%"Packages should only contain characters in the range a-z0-9 and periods but was ", quote p.name, s%"."]
    else []

/-- internal/lint/check_package_lower_snake_case.go:31-69. -/
def packageLowerSnakeCase (env : Env) : Visitor PkgState := packageVisitor env fun _ pkg =>
  match pkg with
  | none => []
  | some p => if !Strs.isLowerSnakeCase (replaceAll p.name s%"." []) then
      addFailure p.position [s%"Package should be lower_snake.case but was ", quote p.name, s%"."]
    else []

/-- internal/lint/check_package_major_beta_versioned.go:31-71. -/
def packageMajorBetaVersioned (env : Env) : Visitor PkgState := packageVisitor env fun filename pkg =>
  match pkg with
  | none => noPackage filename
  | some p => if (Protostrs.majorBetaVersion p.name).isNone then
      addFailure p.position [s%"Package should be of the form \"package.vMAJORVERSION\" or \"packagevMAJORVERSIONbetaBETAVERSION\" with versions >=1 but was ", quote p.name, s%"."]
    else []

/-- The state of `packagesSameInDirVisitor`,
internal/lint/check_packages_same_in_dir.go:56-62. -/
structure PkgSameState where
  pkgs : List Str := []
  pkg : Option Package := none

/-- `packagesSameInDirVisitor`, internal/lint/check_packages_same_in_dir.go:56-82. -/
def packagesSameInDirVisitor (env : Env) : Visitor PkgSameState where
  onStart _ := Act.modify fun s => { s with pkg := none }
  package p := fun s =>
    match s.pkg with
    | some first => (s, addFailure p.position
        [s%"multiple package declarations, first was ", env.showPackage first])
    | none => ({ s with pkg := some p }, [])
  finally_ s :=
    (match s.pkg with
      | some p => { s with pkgs := setInsert s.pkgs p.name }
      | none => s, [], none)

/-- `checkPackagesSameInDir`, internal/lint/check_packages_same_in_dir.go:38-54. -/
def packagesSameInDir (env : Env) : AddCheck := fun dirPath ds =>
  match runVisitor (packagesSameInDirVisitor env) ds {} with
  | (_, es, some err) => (es, some err)
  | (s, es, none) =>
    if s.pkgs.length > 1 then
      let slice := sortStrs (env.order.ord [s%"PACKAGES_SAME_IN_DIR", dirPath] s.pkgs)
      (es ++ ds.flatMap fun d => addFailure { filename := d.filename }
        [s%"Multiple packages in directory: ", join s%", " slice, s%"."], none)
    else (es, none)

/-- The state of `syntaxProto3Visitor`, internal/lint/check_syntax_proto3.go:40-45. -/
structure SyntaxState where
  filename : Str := []
  syntax_ : Option Syntax := none

/-- internal/lint/check_syntax_proto3.go:30-70. -/
def syntaxProto3 (env : Env) : Visitor SyntaxState where
  onStart d := Act.modify fun _ => ⟨d.filename, none⟩
  syntax_ e := fun s =>
    match s.syntax_ with
    | some first => (s, addFailure e.position
        [s%"multiple syntax declarations, first was ", env.showSyntax first])
    | none => ({ s with syntax_ := some e }, [])
  finally_ s := (s, match s.syntax_ with
    | none => addFailure { filename := s.filename } [s%"No syntax declaration found."]
    | some e => if e.value ≠ s%"proto3" then
        addFailure e.position [s%"Syntax should be proto3 but was ", quote e.value, s%"."]
      else [], none)

/-! ## Messages -/

/-- The name of a message with the names of the messages around it, e.g.
internal/lint/check_messages_have_comments_except_request_response_types.go:64-68. -/
def nestedName (nestedMessageNames : List Str) (name : Str) : Str :=
  if nestedMessageNames.length > 0 then join s%"." nestedMessageNames ++ s%"." ++ name else name

/-- The state of the visitors that report messages except request and response types,
e.g. internal/lint/check_messages_have_comments_except_request_response_types.go:40-45.
A nil map is an empty one: the maps are only read or allocated first. -/
structure ExceptState (α : Type) where
  messages : GoMap Str α := []
  requestResponseTypes : List Str := []
  nestedMessageNames : List Str := []

/-- The common part of the two comment linters, e.g.
internal/lint/check_messages_have_comments_except_request_response_types.go:40-99. -/
def messagesExceptVisitor (o : Order) (handle : Message → List Event) :
    Visitor (ExceptState Message) where
  onStart _ := Act.modify fun _ => {}
  message m k := fun s =>
    let r := k { s with nestedMessageNames := s.nestedMessageNames ++ [m.name] }
    let names := r.1.nestedMessageNames.take (r.1.nestedMessageNames.length - 1)
    ({ r.1 with
        nestedMessageNames := names
        messages := GoMap.set r.1.messages (nestedName names m.name) m }, r.2)
  service _ k := k
  rpc r _ := Act.modify fun s => { s with
    requestResponseTypes :=
      setInsert (setInsert s.requestResponseTypes r.requestType) r.returnsType }
  finally_ s := (s, (o.ord [s%"MESSAGES_EXCEPT"] s.messages).flatMap fun p =>
    if !p.2.isExtend then
      if p.1 ∉ s.requestResponseTypes then handle p.2 else []
    else [], none)

/-- internal/lint/check_messages_have_comments_except_request_response_types.go:30-99. -/
def messagesHaveCommentsExceptRequestResponseTypes (env : Env) : Visitor (ExceptState Message) :=
  messagesExceptVisitor (env.order.sub s%"MESSAGES_HAVE_COMMENTS_EXCEPT") fun m =>
    if !hasGolangStyleComment m.comment m.name then
      addFailure m.position [s%"Message ", quote m.name,
        s%" needs a comment of the form \"// ", m.name, s%" ...\""]
    else []

/-- internal/lint/check_messages_have_sentence_comments_except_request_response_types.go:30-99. -/
def messagesHaveSentenceCommentsExceptRequestResponseTypes (env : Env) :
    Visitor (ExceptState Message) :=
  messagesExceptVisitor (env.order.sub s%"MESSAGES_HAVE_SENTENCE_COMMENTS_EXCEPT") fun m =>
    if !hasCompleteSentenceComment m.comment then
      addFailure m.position [s%"Message ", quote m.name, s%" needs a comment with a complete sentence that starts on the first line of the comment."]
    else []

/-- The state of `messagesNotEmptyExceptRequestResponseTypesVisitor`,
internal/lint/check_messages_not_empty_except_request_response_types.go:40-47. -/
structure NotEmptyState where
  messages : GoMap Str (Message × Nat) := []
  requestResponseTypes : List Str := []
  nestedMessageNames : List Str := []
  curFieldCount : Nat := 0

/-- `v.curFieldCount++`. -/
def countField : Act NotEmptyState :=
  Act.modify fun s => { s with curFieldCount := s.curFieldCount + 1 }

/-- internal/lint/check_messages_not_empty_except_request_response_types.go:30-129. -/
def messagesNotEmptyExceptRequestResponseTypes (env : Env) : Visitor NotEmptyState where
  onStart _ := Act.modify fun _ => {}
  message m k := fun s =>
    let r := k { s with
      nestedMessageNames := s.nestedMessageNames ++ [m.name], curFieldCount := 0 }
    let names := r.1.nestedMessageNames.take (r.1.nestedMessageNames.length - 1)
    ({ r.1 with
        nestedMessageNames := names
        curFieldCount := s.curFieldCount
        messages := GoMap.set r.1.messages (nestedName names m.name) (m, r.1.curFieldCount) },
      r.2)
  oneof _ k := k
  normalField _ _ := countField
  oneofField _ _ := countField
  mapField _ _ := countField
  service _ k := k
  rpc r _ := Act.modify fun s => { s with
    requestResponseTypes :=
      setInsert (setInsert s.requestResponseTypes r.requestType) r.returnsType }
  finally_ s := (s, (env.order.ord [s%"MESSAGES_NOT_EMPTY"] s.messages).flatMap fun p =>
    if p.1 ∉ s.requestResponseTypes then
      if p.2.2 = 0 then
        addFailure p.2.1.position [s%"Message ", quote p.1, s%" should not be empty. Only request and response types are allowed to be empty."]
      else []
    else [], none)

/-! ## Request and response types -/

/-- The state of `requestResponseTypesAfterServiceVisitor`,
internal/lint/check_request_response_types_after_service.go:40-44. -/
structure AfterState where
  messages : GoMap Str Message := []
  rpcs : List RPC := []

/-- internal/lint/check_request_response_types_after_service.go:30-110. -/
def requestResponseTypesAfterService : Visitor AfterState where
  onStart _ := Act.modify fun _ => {}
  message m _ := Act.modify fun s => { s with messages := GoMap.set s.messages m.name m }
  service _ k := k
  rpc r _ := Act.modify fun s => { s with rpcs := s.rpcs ++ [r] }
  finally_ s := (s, s.rpcs.flatMap fun rpc =>
    let request := GoMap.get? s.messages rpc.requestType
    let response := GoMap.get? s.messages rpc.returnsType
    (match request with
      | some m => if rpc.position.line > m.position.line then
          addFailure m.position [s%"Message ", quote m.name, s%" is a request for RPC ",
            quote rpc.name, s%" and should be defined in the file after the RPC."]
        else []
      | none => []) ++
    (match response with
      | some m => if rpc.position.line > m.position.line then
          addFailure m.position [s%"Message ", quote m.name, s%" is a response for RPC ",
            quote rpc.name, s%" and should be defined in the file after the RPC."]
        else []
      | none => []) ++
    (match request, response with
      | some req, some resp => if req.position.line > resp.position.line then
          addFailure resp.position [s%"Message ", quote resp.name, s%" is a response for RPC ",
            quote rpc.name, s%" and should be defined in the file after the request ",
            quote req.name, s%"."]
        else []
      | _, _ => []), none)

/-- The state of `requestResponseTypesInSameFileVisitor`,
internal/lint/check_request_response_types_in_same_file.go:41-46. -/
structure SameFileState where
  messageTypes : List Str := []
  rpcs : List RPC := []
  nestedMessageNames : List Str := []

/-- internal/lint/check_request_response_types_in_same_file.go:31-109. -/
def requestResponseTypesInSameFile : Visitor SameFileState where
  onStart _ := Act.modify fun _ => {}
  message m k := fun s =>
    let r := k { s with nestedMessageNames := s.nestedMessageNames ++ [m.name] }
    let names := r.1.nestedMessageNames.take (r.1.nestedMessageNames.length - 1)
    ({ r.1 with
        nestedMessageNames := names
        messageTypes := setInsert r.1.messageTypes (nestedName names m.name) }, r.2)
  service _ k := k
  rpc r _ := Act.modify fun s => { s with rpcs := s.rpcs ++ [r] }
  finally_ s := (s, s.rpcs.flatMap fun rpc =>
    (if rpc.requestType ∉ s.messageTypes then
      addFailure rpc.position [s%"Request type ", quote rpc.requestType,
        s%" should be defined in the same file as the corresponding service."]
    else if '.' ∈ rpc.requestType then
      addFailure rpc.position [s%"Request type ", quote rpc.requestType,
        s%" is a nested message and only top-level messages should be request types."]
    else []) ++
    (if rpc.returnsType ∉ s.messageTypes then
      addFailure rpc.position [s%"Response type ", quote rpc.returnsType,
        s%" should be defined in the same file as the corresponding service."]
    else if '.' ∈ rpc.returnsType then
      addFailure rpc.position [s%"Response type ", quote rpc.returnsType,
        s%" is a nested message and only top-level messages should be response types."]
    else []), none)

/-- The state of `requestResponseTypesOnlyInFileVisitor`,
internal/lint/check_request_response_types_only_in_file.go:40-45. -/
structure OnlyState where
  messages : GoMap Str Message := []
  enums : GoMap Str Enum := []
  rpcs : List RPC := []

/-- internal/lint/check_request_response_types_only_in_file.go:30-111. -/
def requestResponseTypesOnlyInFile (env : Env) : Visitor OnlyState where
  onStart _ := Act.modify fun _ => {}
  enum e _ := Act.modify fun s => { s with enums := GoMap.set s.enums e.name e }
  message m _ := Act.modify fun s => { s with messages := GoMap.set s.messages m.name m }
  service _ k := k
  rpc r _ := Act.modify fun s => { s with rpcs := s.rpcs ++ [r] }
  finally_ s :=
    if s.rpcs.length = 0 then (s, [], none)
    else
      let messages := s.rpcs.foldl (fun ms rpc =>
        GoMap.delete (GoMap.delete ms rpc.requestType) rpc.returnsType) s.messages
      ({ s with messages := messages },
        ((env.order.ord [s%"ONLY_IN_FILE", s%"enums"] s.enums).flatMap fun p =>
          addFailure p.2.position [s%"Enum ", quote p.2.name,
            s%" is in the same file as a service and should be in a separate file."]) ++
        ((env.order.ord [s%"ONLY_IN_FILE", s%"messages"] messages).flatMap fun p =>
          addFailure p.2.position [s%"Message ", quote p.2.name, s%" is not a request or response of any service in this file and should be in a separate file."]),
        none)

/-- One turn of the loop of `requestResponseTypesUniqueVisitor.VisitRPC`,
internal/lint/check_request_response_types_unique.go:58-63. -/
def useType (p : Position) (t : Str) : Act (List Str) := fun seen =>
  (setInsert seen t, if t ∈ seen then
    addFailure p [s%"Message ", quote t, s%" is already used as a request or response type in an RPC and all request and response types must be unique."]
  else [])

/-- internal/lint/check_request_response_types_unique.go:28-64. -/
def requestResponseTypesUnique : Visitor (List Str) where
  onStart _ := Act.modify fun _ => []
  service _ k := k
  rpc r _ := (useType r.position r.requestType).seq (useType r.position r.returnsType)

/-! ## Services -/

/-- The state of `serviceNamesMatchFileNameVisitor`,
internal/lint/check_service_names_match_file_name.go:41-45. -/
structure ServicesState where
  filename : Str := []
  services : List Service := []

/-- internal/lint/check_service_names_match_file_name.go:31-74. -/
def serviceNamesMatchFileName : Visitor ServicesState where
  onStart d := Act.modify fun _ => ⟨d.filename, []⟩
  service e _ := Act.modify fun s => { s with services := s.services ++ [e] }
  finally_ s := (s, match s.services with
    | [] => []
    | [service] =>
      let filename := Path.base s.filename
      let expectedFilename := Strs.toLowerSnakeCase service.name ++ s%".proto"
      if filename ≠ expectedFilename then
        addFailure service.position [s%"Expected filename to be ", quote expectedFilename,
          s%" for file containing service ", quote service.name, s%" but was ", quote filename,
          s%"."]
      else []
    | services => services.flatMap fun service => addFailure service.position [s%"Multiple services defined in this file and there should be only one service per file."],
    none)

end Verif.Lint
