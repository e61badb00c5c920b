import Verif.Model.LintersState

/-!
# Model of the linter tables and `GetLinters` of internal/lint/lint.go, and of
internal/lint/base_linter.go
-/

namespace Verif.Lint

open Verif Proto Str

/-- `baseLinter`, internal/lint/base_linter.go:33-38. -/
structure Linter where
  id : Str
  purpose : Str
  suppressableAnnotation : Str
  addCheck : AddCheck

/-- `newBaseLinter`, internal/lint/base_linter.go:40-63. -/
def newLinter (id purpose : Str) (addCheck : AddCheck) : Linter :=
  ⟨toUpper id, purpose, [], addCheck⟩

/-- `newBaseSuppressableLinter`, internal/lint/base_linter.go:65-77. -/
def newSuppressableLinter (id purpose annotation : Str) (addCheck : AddCheck) : Linter :=
  ⟨toUpper id, purpose, annotation, addCheck⟩

/-- `Purpose`, internal/lint/base_linter.go:83-88. -/
def Linter.purposeIn (l : Linter) (config : Settings.LintConfig) : Str :=
  if l.suppressableAnnotation ≠ [] && config.allowSuppression then
    s%"Suppressable with \"@suppresswarnings " ++ l.suppressableAnnotation ++ s%"\". " ++ l.purpose
  else l.purpose

/-- `allowSuppression`, internal/lint/base_linter.go:114-116. -/
def Linter.allowSuppression (l : Linter) (protoSet : Option Settings.Config) : Bool :=
  l.suppressableAnnotation ≠ [] &&
    match protoSet with
    | none => false
    | some c => c.lint.allowSuppression

/-- `isSuppressed`, internal/lint/base_linter.go:118-132. -/
def Linter.isSuppressed (l : Linter) (protoSet : Option Settings.Config)
    (comment : Option Comment) : Bool :=
  if !l.allowSuppression protoSet then false
  else
    match comment with
    | none => false
    | some c => c.lines.any fun line =>
        contains line (s%"@suppresswarnings " ++ l.suppressableAnnotation)

/-- What `Check` does with one event, internal/lint/base_linter.go:93-105, and the
assignment of the ID, :109-111. -/
def Linter.report (l : Linter) : Event → Option Text.Failure
  | .panic => none
  | .add protoSet comment failure =>
    if l.isSuppressed protoSet comment then none
    else
      let message :=
        if l.allowSuppression protoSet && failure.message ≠ [] then
          failure.message ++ s%" This can be suppressed by adding \"@suppresswarnings " ++
            l.suppressableAnnotation ++ s%"\" to the comment."
        else failure.message
      some { failure with message := message, lintID := l.id }

/-- Whether an event is a panic. -/
def Event.isPanic : Event → Bool
  | .panic => true
  | .add _ _ _ => false

/-- `Check`, internal/lint/base_linter.go:90-112. `none` is a panic. The failures returned
beside an error are not used by any caller and left out. -/
def Linter.check (l : Linter) (dirPath : Str) (ds : List FileDescriptor) :
    Option (Except Err (List Text.Failure)) :=
  let r := l.addCheck dirPath ds
  if r.1.any Event.isPanic then none
  else some (match r.2 with
    | some err => .error err
    | none => .ok (r.1.filterMap l.report))

/-! ## The linters -/

/-- internal/lint/check_comments_no_c_style.go:30-34. -/
def commentsNoCStyleLinter : Linter :=
  newLinter s%"COMMENTS_NO_C_STYLE"
    s%"Verifies that there are no /* c-style */ comments."
    (visitWith commentsNoCStyle ())

/-- internal/lint/check_comments_no_inline.go:28-32. -/
def commentsNoInlineLinter : Linter :=
  newLinter s%"COMMENTS_NO_INLINE"
    s%"Verifies that there are no inline comments."
    (visitWith commentsNoInline ())

/-- internal/lint/check_enum_field_names_uppercase.go:29-33. -/
def enumFieldNamesUppercaseLinter : Linter :=
  newLinter s%"ENUM_FIELD_NAMES_UPPERCASE"
    s%"Verifies that all enum field names are UPPERCASE."
    (visitWith enumFieldNamesUppercase ())

/-- internal/lint/check_enum_field_names_upper_snake_case.go:29-33. -/
def enumFieldNamesUpperSnakeCaseLinter : Linter :=
  newLinter s%"ENUM_FIELD_NAMES_UPPER_SNAKE_CASE"
    s%"Verifies that all enum field names are UPPER_SNAKE_CASE."
    (visitWith enumFieldNamesUpperSnakeCase ())

/-- internal/lint/check_enum_field_prefixes.go:31-35. -/
def enumFieldPrefixesLinter : Linter :=
  newLinter s%"ENUM_FIELD_PREFIXES"
    s%"Verifies that all enum fields are prefixed with [NESTED_MESSAGE_NAME_]ENUM_NAME_."
    (visitWith enumFieldPrefixes [])

/-- internal/lint/check_enum_field_prefixes_except_message.go:31-35. -/
def enumFieldPrefixesExceptMessageLinter : Linter :=
  newLinter s%"ENUM_FIELD_PREFIXES_EXCEPT_MESSAGE"
    s%"Verifies that all enum fields are prefixed with ENUM_NAME_."
    (visitWith enumFieldPrefixesExceptMessage ())

/-- internal/lint/check_enum_fields_have_comments.go:28-32. -/
def enumFieldsHaveCommentsLinter : Linter :=
  newLinter s%"ENUM_FIELDS_HAVE_COMMENTS"
    s%"Verifies that all enum fields have a comment of the form \"// FIELD_NAME ...\"."
    (visitWith enumFieldsHaveComments ())

/-- internal/lint/check_enum_fields_have_sentence_comments.go:28-32. -/
def enumFieldsHaveSentenceCommentsLinter : Linter :=
  newLinter s%"ENUM_FIELDS_HAVE_SENTENCE_COMMENTS"
    s%"Verifies that all enum fields have a comment that contains at least one complete sentence."
    (visitWith enumFieldsHaveSentenceComments ())

/-- internal/lint/check_enum_names_camel_case.go:29-33. -/
def enumNamesCamelCaseLinter : Linter :=
  newLinter s%"ENUM_NAMES_CAMEL_CASE"
    s%"Verifies that all enum names are CamelCase."
    (visitWith enumNamesCamelCase ())

/-- internal/lint/check_enum_names_capitalized.go:29-33. -/
def enumNamesCapitalizedLinter : Linter :=
  newLinter s%"ENUM_NAMES_CAPITALIZED"
    s%"Verifies that all enum names are Capitalized."
    (visitWith enumNamesCapitalized ())

/-- internal/lint/check_enum_zero_values_invalid.go:31-35. -/
def enumZeroValuesInvalidLinter : Linter :=
  newLinter s%"ENUM_ZERO_VALUES_INVALID"
    s%"Verifies that all enum zero value names are [NESTED_MESSAGE_NAME_]ENUM_NAME_INVALID."
    (visitWith enumZeroValuesInvalid [])

/-- internal/lint/check_enum_zero_values_invalid_except_message.go:29-33. -/
def enumZeroValuesInvalidExceptMessageLinter : Linter :=
  newLinter s%"ENUM_ZERO_VALUES_INVALID_EXCEPT_MESSAGE"
    s%"Verifies that all enum zero value names are ENUM_NAME_INVALID."
    (visitWith enumZeroValuesInvalidExceptMessage ())

/-- internal/lint/check_enums_have_comments.go:28-32. -/
def enumsHaveCommentsLinter : Linter :=
  newLinter s%"ENUMS_HAVE_COMMENTS"
    s%"Verifies that all enums have a comment of the form \"// EnumName ...\"."
    (visitWith enumsHaveComments ())

/-- internal/lint/check_enums_have_sentence_comments.go:28-32. -/
def enumsHaveSentenceCommentsLinter : Linter :=
  newLinter s%"ENUMS_HAVE_SENTENCE_COMMENTS"
    s%"Verifies that all enums have a comment that contains at least one complete sentence."
    (visitWith enumsHaveSentenceComments ())

/-- internal/lint/check_enums_no_allow_alias.go:28-32. -/
def enumsNoAllowAliasLinter : Linter :=
  newLinter s%"ENUMS_NO_ALLOW_ALIAS"
    s%"Verifies that no enums use the option \"allow_alias\"."
    (visitWith enumsNoAllowAlias ())

/-- internal/lint/check_fields_not_reserved.go:30-34. -/
def fieldsNotReservedLinter : Linter :=
  newLinter s%"FIELDS_NOT_RESERVED"
    s%"Verifies that no message or enum has a reserved field."
    (visitWith fieldsNotReserved [])

/-- internal/lint/check_file_header.go:30-34. -/
def fileHeaderLinter : Linter :=
  newLinter s%"FILE_HEADER"
    s%"Verifies that the file header matches the expected file header if the file_header option is set in the configuration file."
    (visitWith fileHeader ())

/-- internal/lint/check_file_names_lower_snake_case.go:32-36. -/
def fileNamesLowerSnakeCaseLinter : Linter :=
  newLinter s%"FILE_NAMES_LOWER_SNAKE_CASE"
    s%"Verifies that the file name is lower_snake_case.proto."
    (visitWith fileNamesLowerSnakeCase ())

/-- internal/lint/check_file_options_same_in_dir.go:32-36. -/
def fileOptionsCSharpNamespaceSameInDirLinter (env : Env) : Linter :=
  newLinter s%"FILE_OPTIONS_CSHARP_NAMESPACE_SAME_IN_DIR"
    s%"Verifies that the file option \"csharp_namespace\" of all files in a directory are the same."
    (fileOptionsSameInDir env s%"csharp_namespace")

/-- internal/lint/check_file_options_equal.go:31-37. -/
def fileOptionsEqualCSharpNamespaceCapitalizedLinter : Linter :=
  newLinter s%"FILE_OPTIONS_EQUAL_CSHARP_NAMESPACE_CAPITALIZED"
    s%"Verifies that the file option \"csharp_namespace\" is the capitalized version of the package."
    (visitWith (fileOptionsEqual s%"csharp_namespace" fun _ pkg => Protostrs.csharpNamespace pkg.name) {})

/-- internal/lint/check_file_options_equal.go:47-53. -/
def fileOptionsEqualGoPackageV2SuffixLinter : Linter :=
  newLinter s%"FILE_OPTIONS_EQUAL_GO_PACKAGE_V2_SUFFIX"
    s%"Verifies that the file option \"go_package\" is equal to the last two values of the package separated by \".\"s, or just the package name if there are no \".\"s."
    (visitWith (fileOptionsEqual s%"go_package" fun _ pkg => Protostrs.goPackageV2 pkg.name) {})

/-- internal/lint/check_file_options_equal.go:39-45. -/
def fileOptionsEqualGoPackagePbSuffixLinter : Linter :=
  newLinter s%"FILE_OPTIONS_EQUAL_GO_PACKAGE_PB_SUFFIX"
    s%"Verifies that the file option \"go_package\" is equal to $(basename PACKAGE)pb."
    (visitWith (fileOptionsEqual s%"go_package" fun _ pkg => Protostrs.goPackage pkg.name) {})

/-- internal/lint/check_file_options_equal.go:55-61. -/
def fileOptionsEqualJavaMultipleFilesTrueLinter : Linter :=
  newLinter s%"FILE_OPTIONS_EQUAL_JAVA_MULTIPLE_FILES_TRUE"
    s%"Verifies that the file option \"java_multiple_files\" is equal to true."
    (visitWith (fileOptionsEqual s%"java_multiple_files" fun _ _ => s%"true") {})

/-- internal/lint/check_file_options_equal.go:63-69. -/
def fileOptionsEqualJavaOuterClassnameProtoSuffixLinter : Linter :=
  newLinter s%"FILE_OPTIONS_EQUAL_JAVA_OUTER_CLASSNAME_PROTO_SUFFIX"
    s%"Verifies that the file option \"java_outer_classname\" is equal to $(upperCamelCase $(basename FILE))Proto."
    (visitWith (fileOptionsEqual s%"java_outer_classname" fun d _ => Protostrs.javaOuterClassname d.filename) {})

/-- internal/lint/check_file_options_equal.go:71-77. -/
def fileOptionsEqualJavaPackageComPrefixLinter : Linter :=
  newLinter s%"FILE_OPTIONS_EQUAL_JAVA_PACKAGE_COM_PREFIX"
    s%"Verifies that the file option \"java_package\" is equal to com.PACKAGE."
    (visitWith (fileOptionsEqual s%"java_package" fun _ pkg => Protostrs.javaPackage pkg.name) {})

/-- internal/lint/check_file_options_equal.go:79-85. -/
def fileOptionsEqualJavaPackagePrefixLinter : Linter :=
  newLinter s%"FILE_OPTIONS_EQUAL_JAVA_PACKAGE_PREFIX"
    s%"Verifies that the file option \"java_package\" is equal to PREFIX.PACKAGE, with PREFIX defaulting to \"com\" and configurable in your configuration file."
    (visitWith (fileOptionsEqual s%"java_package" fun d pkg =>
      Protostrs.javaPackagePrefixOverride pkg.name d.config.lint.javaPackagePrefix) {})

/-- internal/lint/check_file_options_equal.go:87-93. -/
def fileOptionsEqualOBJCClassPrefixAbbrLinter : Linter :=
  newLinter s%"FILE_OPTIONS_EQUAL_OBJC_CLASS_PREFIX_ABBR"
    s%"Verifies that the file option \"objc_class_prefix\" is the abbreviated version of the package."
    (visitWith (fileOptionsEqual s%"objc_class_prefix" fun _ pkg => Protostrs.objcClassPrefix pkg.name) {})

/-- internal/lint/check_file_options_equal.go:95-101. -/
def fileOptionsEqualPHPNamespaceCapitalizedLinter : Linter :=
  newLinter s%"FILE_OPTIONS_EQUAL_PHP_NAMESPACE_CAPITALIZED"
    s%"Verifies that the file option \"php_namespace\" is the capitalized version of the package."
    (visitWith (fileOptionsEqual s%"php_namespace" fun _ pkg => Protostrs.phpNamespace pkg.name) {})

/-- internal/lint/check_go_package_not_long_form.go:30-34. -/
def fileOptionsGoPackageNotLongFormLinter : Linter :=
  newLinter s%"FILE_OPTIONS_GO_PACKAGE_NOT_LONG_FORM"
    s%"Verifies that the file option \"go_package\" is not of the form \"go/import/path;package\"."
    (visitWith fileOptionsGoPackageNotLongForm none)

/-- internal/lint/check_file_options_same_in_dir.go:38-42. -/
def fileOptionsGoPackageSameInDirLinter (env : Env) : Linter :=
  newLinter s%"FILE_OPTIONS_GO_PACKAGE_SAME_IN_DIR"
    s%"Verifies that the file option \"go_package\" of all files in a directory are the same."
    (fileOptionsSameInDir env s%"go_package")

/-- internal/lint/check_file_options_same_in_dir.go:44-48. -/
def fileOptionsJavaMultipleFilesSameInDirLinter (env : Env) : Linter :=
  newLinter s%"FILE_OPTIONS_JAVA_MULTIPLE_FILES_SAME_IN_DIR"
    s%"Verifies that the file option \"java_multiple_files\" of all files in a directory are the same."
    (fileOptionsSameInDir env s%"java_multiple_files")

/-- internal/lint/check_file_options_same_in_dir.go:50-54. -/
def fileOptionsJavaPackageSameInDirLinter (env : Env) : Linter :=
  newLinter s%"FILE_OPTIONS_JAVA_PACKAGE_SAME_IN_DIR"
    s%"Verifies that the file option \"java_package\" of all files in a directory are the same."
    (fileOptionsSameInDir env s%"java_package")

/-- internal/lint/check_file_options_same_in_dir.go:56-60. -/
def fileOptionsOBJCClassPrefixSameInDirLinter (env : Env) : Linter :=
  newLinter s%"FILE_OPTIONS_OBJC_CLASS_PREFIX_SAME_IN_DIR"
    s%"Verifies that the file option \"objc_class_prefix\" of all files in a directory are the same."
    (fileOptionsSameInDir env s%"objc_class_prefix")

/-- internal/lint/check_file_options_same_in_dir.go:62-66. -/
def fileOptionsPHPNamespaceSameInDirLinter (env : Env) : Linter :=
  newLinter s%"FILE_OPTIONS_PHP_NAMESPACE_SAME_IN_DIR"
    s%"Verifies that the file option \"php_namespace\" of all files in a directory are the same."
    (fileOptionsSameInDir env s%"php_namespace")

/-- internal/lint/check_file_options_required.go:30-34. -/
def fileOptionsRequireCSharpNamespaceLinter : Linter :=
  newLinter s%"FILE_OPTIONS_REQUIRE_CSHARP_NAMESPACE"
    s%"Verifies that the file option \"csharp_namespace\" is set."
    (visitWith (fileOptionsRequire s%"csharp_namespace") {})

/-- internal/lint/check_file_options_required.go:36-40. -/
def fileOptionsRequireGoPackageLinter : Linter :=
  newLinter s%"FILE_OPTIONS_REQUIRE_GO_PACKAGE"
    s%"Verifies that the file option \"go_package\" is set."
    (visitWith (fileOptionsRequire s%"go_package") {})

/-- internal/lint/check_file_options_required.go:42-46. -/
def fileOptionsRequireJavaMultipleFilesLinter : Linter :=
  newLinter s%"FILE_OPTIONS_REQUIRE_JAVA_MULTIPLE_FILES"
    s%"Verifies that the file option \"java_multiple_files\" is set."
    (visitWith (fileOptionsRequire s%"java_multiple_files") {})

/-- internal/lint/check_file_options_required.go:48-52. -/
def fileOptionsRequireJavaOuterClassnameLinter : Linter :=
  newLinter s%"FILE_OPTIONS_REQUIRE_JAVA_OUTER_CLASSNAME"
    s%"Verifies that the file option \"java_outer_classname\" is set."
    (visitWith (fileOptionsRequire s%"java_outer_classname") {})

/-- internal/lint/check_file_options_required.go:54-58. -/
def fileOptionsRequireJavaPackageLinter : Linter :=
  newLinter s%"FILE_OPTIONS_REQUIRE_JAVA_PACKAGE"
    s%"Verifies that the file option \"java_package\" is set."
    (visitWith (fileOptionsRequire s%"java_package") {})

/-- internal/lint/check_file_options_required.go:60-64. -/
def fileOptionsRequireOBJCClassPrefixLinter : Linter :=
  newLinter s%"FILE_OPTIONS_REQUIRE_OBJC_CLASS_PREFIX"
    s%"Verifies that the file option \"objc_class_prefix\" is set."
    (visitWith (fileOptionsRequire s%"objc_class_prefix") {})

/-- internal/lint/check_file_options_required.go:66-70. -/
def fileOptionsRequirePHPNamespaceLinter : Linter :=
  newLinter s%"FILE_OPTIONS_REQUIRE_PHP_NAMESPACE"
    s%"Verifies that the file option \"php_namespace\" is set."
    (visitWith (fileOptionsRequire s%"php_namespace") {})

/-- internal/lint/check_file_options_required.go:72-76. -/
def fileOptionsRequireRubyPackageLinter : Linter :=
  newLinter s%"FILE_OPTIONS_REQUIRE_RUBY_PACKAGE"
    s%"Verifies that the file option \"ruby_package\" is set."
    (visitWith (fileOptionsRequire s%"ruby_package") {})

/-- internal/lint/check_file_options_unset.go:30-34. -/
def fileOptionsUnsetJavaMultipleFilesLinter : Linter :=
  newLinter s%"FILE_OPTIONS_UNSET_JAVA_MULTIPLE_FILES"
    s%"Verifies that the file option \"java_multiple_files\" is unset."
    (visitWith (fileOptionsUnset s%"java_multiple_files") {})

/-- internal/lint/check_file_options_unset.go:36-40. -/
def fileOptionsUnsetJavaOuterClassnameLinter : Linter :=
  newLinter s%"FILE_OPTIONS_UNSET_JAVA_OUTER_CLASSNAME"
    s%"Verifies that the file option \"java_outer_classname\" is unset."
    (visitWith (fileOptionsUnset s%"java_outer_classname") {})

/-- internal/lint/check_gogo_not_imported.go:31-35. -/
def gogoNotImportedLinter : Linter :=
  newLinter s%"GOGO_NOT_IMPORTED"
    s%"Verifies that the \"gogo.proto\" file from gogo/protobuf is not imported."
    (visitWith gogoNotImported ())

/-- internal/lint/check_imports_not_public.go:29-33. -/
def importsNotPublicLinter : Linter :=
  newLinter s%"IMPORTS_NOT_PUBLIC"
    s%"Verifies that there are no public imports."
    (visitWith importsNotPublic ())

/-- internal/lint/check_imports_not_weak.go:29-33. -/
def importsNotWeakLinter : Linter :=
  newLinter s%"IMPORTS_NOT_WEAK"
    s%"Verifies that there are no weak imports."
    (visitWith importsNotWeak ())

/-- internal/lint/check_message_fields_duration.go:30-34. -/
def messageFieldsDurationLinter : Linter :=
  newLinter s%"MESSAGE_FIELDS_DURATION"
    s%"Verifies that all non-map fields that contain \"duration\" in their name are google.protobuf.Durations."
    (visitWith messageFieldsDuration ())

/-- internal/lint/check_message_fields_have_comments.go:28-32. -/
def messageFieldsHaveCommentsLinter : Linter :=
  newLinter s%"MESSAGE_FIELDS_HAVE_COMMENTS"
    s%"Verifies that all message fields have a comment of the form \"// field_name ...\"."
    (visitWith messageFieldsHaveComments ())

/-- internal/lint/check_message_fields_have_sentence_comments.go:28-32. -/
def messageFieldsHaveSentenceCommentsLinter : Linter :=
  newLinter s%"MESSAGE_FIELDS_HAVE_SENTENCE_COMMENTS"
    s%"Verifies that all message fields have a comment that contains at least one complete sentence."
    (visitWith messageFieldsHaveSentenceComments ())

/-- internal/lint/check_message_fields_not_floats.go:29-34. -/
def messageFieldsNotFloatsLinter : Linter :=
  newSuppressableLinter s%"MESSAGE_FIELDS_NOT_FLOATS"
    s%"Verifies that all message fields are not floats."
    s%"floats" (visitWith messageFieldsNotFloats none)

/-- internal/lint/check_message_fields_no_json_name.go:28-32. -/
def messageFieldsNoJSONNameLinter : Linter :=
  newLinter s%"MESSAGE_FIELDS_NO_JSON_NAME"
    s%"Verifies that no message field has the \"json_name\" option set."
    (visitWith messageFieldsNoJSONName ())

/-- internal/lint/check_message_fields_time.go:30-34. -/
def messageFieldsTimeLinter : Linter :=
  newLinter s%"MESSAGE_FIELDS_TIME"
    s%"Verifies that all non-map fields that contain \"time\" in their name are google.protobuf.Timestamps."
    (visitWith messageFieldsTime ())

/-- internal/lint/check_message_field_names_filename.go:30-34. -/
def messageFieldNamesFilenameLinter : Linter :=
  newLinter s%"MESSAGE_FIELD_NAMES_FILENAME"
    s%"Verifies that all message field names do not contain \"file_name\" as \"filename\" should be used instead."
    (visitWith messageFieldNamesFilename ())

/-- internal/lint/check_message_field_names_filepath.go:30-34. -/
def messageFieldNamesFilepathLinter : Linter :=
  newLinter s%"MESSAGE_FIELD_NAMES_FILEPATH"
    s%"Verifies that all message field names do not contain \"file_path\" as \"filepath\" should be used instead."
    (visitWith messageFieldNamesFilepath ())

/-- internal/lint/check_message_field_names_lower_snake_case.go:29-33. -/
def messageFieldNamesLowerSnakeCaseLinter : Linter :=
  newLinter s%"MESSAGE_FIELD_NAMES_LOWER_SNAKE_CASE"
    s%"Verifies that all message field names are lower_snake_case."
    (visitWith messageFieldNamesLowerSnakeCase ())

/-- internal/lint/check_message_field_names_lowercase.go:29-33. -/
def messageFieldNamesLowercaseLinter : Linter :=
  newLinter s%"MESSAGE_FIELD_NAMES_LOWERCASE"
    s%"Verifies that all message field names are lowercase."
    (visitWith messageFieldNamesLowercase ())

/-- internal/lint/check_message_field_names_no_descriptor.go:30-34. -/
def messageFieldNamesNoDescriptorLinter : Linter :=
  newLinter s%"MESSAGE_FIELD_NAMES_NO_DESCRIPTOR"
    s%"Verifies that all message field names are not \"descriptor\", which results in a collision in Java-generated code."
    (visitWith messageFieldNamesNoDescriptor ())

/-- internal/lint/check_message_names_camel_case.go:29-33. -/
def messageNamesCamelCaseLinter : Linter :=
  newLinter s%"MESSAGE_NAMES_CAMEL_CASE"
    s%"Verifies that all non-extended message names are CamelCase."
    (visitWith messageNamesCamelCase ())

/-- internal/lint/check_message_names_capitalized.go:29-33. -/
def messageNamesCapitalizedLinter : Linter :=
  newLinter s%"MESSAGE_NAMES_CAPITALIZED"
    s%"Verifies that all non-extended message names are Capitalized."
    (visitWith messageNamesCapitalized ())

/-- internal/lint/check_messages_have_comments.go:28-32. -/
def messagesHaveCommentsLinter : Linter :=
  newLinter s%"MESSAGES_HAVE_COMMENTS"
    s%"Verifies that all non-extended messages have a comment of the form \"// MessageName ...\"."
    (visitWith messagesHaveComments ())

/-- internal/lint/check_messages_have_comments_except_request_response_types.go:30-34. -/
def messagesHaveCommentsExceptRequestResponseTypesLinter (env : Env) : Linter :=
  newLinter s%"MESSAGES_HAVE_COMMENTS_EXCEPT_REQUEST_RESPONSE_TYPES"
    s%"Verifies that all non-extended messages except for request and response types have a comment of the form \"// MessageName ...\"."
    (visitWith (messagesHaveCommentsExceptRequestResponseTypes env) {})

/-- internal/lint/check_messages_have_sentence_comments_except_request_response_types.go:30-34. -/
def messagesHaveSentenceCommentsExceptRequestResponseTypesLinter (env : Env) : Linter :=
  newLinter s%"MESSAGES_HAVE_SENTENCE_COMMENTS_EXCEPT_REQUEST_RESPONSE_TYPES"
    s%"Verifies that all non-extended messages except for request and response types have a comment that contains at least one complete sentence."
    (visitWith (messagesHaveSentenceCommentsExceptRequestResponseTypes env) {})

/-- internal/lint/check_messages_not_empty_except_request_response_types.go:30-34. -/
def messagesNotEmptyExceptRequestResponseTypesLinter (env : Env) : Linter :=
  newLinter s%"MESSAGES_NOT_EMPTY_EXCEPT_REQUEST_RESPONSE_TYPES"
    s%"Verifies that all messages except for request and response types are not empty."
    (visitWith (messagesNotEmptyExceptRequestResponseTypes env) {})

/-- internal/lint/check_names.go:34-37. -/
def namesNoCommonLinter : Linter :=
  newSuppressableLinter s%"NAMES_NO_COMMON"
    (s%"Verifies that no type name contains the word " ++ quote s%"common" ++ s%".")
    s%"naming" (visitWith namesNoCommon none)

/-- internal/lint/check_names.go:38-41. -/
def namesNoDataLinter : Linter :=
  newSuppressableLinter s%"NAMES_NO_DATA"
    (s%"Verifies that no type name contains the word " ++ quote s%"data" ++ s%".")
    s%"naming" (visitWith namesNoData none)

/-- internal/lint/check_names.go:42-45. -/
def namesNoUUIDLinter : Linter :=
  newSuppressableLinter s%"NAMES_NO_UUID"
    (s%"Verifies that no type name contains the word " ++ quote s%"uuid" ++ s%".")
    s%"naming" (visitWith namesNoUUID none)

/-- internal/lint/check_oneof_names_lower_snake_case.go:29-33. -/
def oneofNamesLowerSnakeCaseLinter : Linter :=
  newLinter s%"ONEOF_NAMES_LOWER_SNAKE_CASE"
    s%"Verifies that all oneof names are lower_snake_case."
    (visitWith oneofNamesLowerSnakeCase ())

/-- internal/lint/check_package_is_declared.go:30-34. -/
def packageIsDeclaredLinter (env : Env) : Linter :=
  newLinter s%"PACKAGE_IS_DECLARED"
    s%"Verifies that there is a package declaration."
    (visitWith (packageIsDeclared env) {})

/-- internal/lint/check_package_lower_case.go:28-32. -/
def packageLowerCaseLinter (env : Env) : Linter :=
  newLinter s%"PACKAGE_LOWER_CASE"
    s%"Verifies that the package name only contains characters in the range a-z0-9 and periods."
    (visitWith (packageLowerCase env) {})

/-- internal/lint/check_package_lower_snake_case.go:31-35. -/
def packageLowerSnakeCaseLinter (env : Env) : Linter :=
  newLinter s%"PACKAGE_LOWER_SNAKE_CASE"
    s%"Verifies that the package is lower_snake.case."
    (visitWith (packageLowerSnakeCase env) {})

/-- internal/lint/check_package_major_beta_versioned.go:31-35. -/
def packageMajorBetaVersionedLinter (env : Env) : Linter :=
  newLinter s%"PACKAGE_MAJOR_BETA_VERSIONED"
    s%"Verifies that the package is of the form \"package.vMAJORVERSION\" or \"package.vMAJORVERSIONbetaBETAVERSION\" with versions >=1."
    (visitWith (packageMajorBetaVersioned env) {})

/-- internal/lint/check_package_no_keywords.go:41-46. -/
def packageNoKeywordsLinter : Linter :=
  newSuppressableLinter s%"PACKAGE_NO_KEYWORDS"
    (s%"Verifies that no packages contain one of the keywords \"" ++ join s%"," keywords ++
      s%"\" as part of the name when split on '.'.")
    s%"keywords" (visitWith packageNoKeywords none)

/-- internal/lint/check_packages_same_in_dir.go:32-36. -/
def packagesSameInDirLinter (env : Env) : Linter :=
  newLinter s%"PACKAGES_SAME_IN_DIR"
    s%"Verifies that the packages of all files in a directory are the same."
    (packagesSameInDir env)

/-- internal/lint/check_rpcs_have_comments.go:28-32. -/
def rpcsHaveCommentsLinter : Linter :=
  newLinter s%"RPCS_HAVE_COMMENTS"
    s%"Verifies that all rpcs have a comment of the form \"// RPCName ...\"."
    (visitWith rpcsHaveComments ())

/-- internal/lint/check_rpcs_have_sentence_comments.go:28-32. -/
def rpcsHaveSentenceCommentsLinter : Linter :=
  newLinter s%"RPCS_HAVE_SENTENCE_COMMENTS"
    s%"Verifies that all rpcs have a comment that contains at least one complete sentence."
    (visitWith rpcsHaveSentenceComments ())

/-- internal/lint/check_rpcs_no_streaming.go:28-32. -/
def rpcsNoStreamingLinter : Linter :=
  newLinter s%"RPCS_NO_STREAMING"
    s%"Verifies that all rpcs are unary."
    (visitWith rpcsNoStreaming ())

/-- internal/lint/check_rpc_names_camel_case.go:29-33. -/
def rpcNamesCamelCaseLinter : Linter :=
  newLinter s%"RPC_NAMES_CAMEL_CASE"
    s%"Verifies that all RPC names are CamelCase."
    (visitWith rpcNamesCamelCase ())

/-- internal/lint/check_rpc_names_capitalized.go:29-33. -/
def rpcNamesCapitalizedLinter : Linter :=
  newLinter s%"RPC_NAMES_CAPITALIZED"
    s%"Verifies that all RPC names are Capitalized."
    (visitWith rpcNamesCapitalized ())

/-- internal/lint/check_rpc_options_no_google_api_http.go:31-36. -/
def rpcOptionsNoGoogleAPIHTTPLinter : Linter :=
  newSuppressableLinter s%"RPC_OPTIONS_NO_GOOGLE_API_HTTP"
    s%"Verifies that the RPC option \"google.api.http\" is not used."
    s%"google-api-http" (visitWith rpcOptionsNoGoogleAPIHTTP {})

/-- internal/lint/check_request_response_types_after_service.go:30-34. -/
def requestResponseTypesAfterServiceLinter : Linter :=
  newLinter s%"REQUEST_RESPONSE_TYPES_AFTER_SERVICE"
    s%"Verifies that request and response types are defined after any services and the response type is defined after the request type."
    (visitWith requestResponseTypesAfterService {})

/-- internal/lint/check_request_response_types_in_same_file.go:31-35. -/
def requestResponseTypesInSameFileLinter : Linter :=
  newLinter s%"REQUEST_RESPONSE_TYPES_IN_SAME_FILE"
    s%"Verifies that all request and response types are in the same file as their corresponding service and are not nested messages."
    (visitWith requestResponseTypesInSameFile {})

/-- internal/lint/check_request_response_types_only_in_file.go:30-34. -/
def requestResponseTypesOnlyInFileLinter (env : Env) : Linter :=
  newLinter s%"REQUEST_RESPONSE_TYPES_ONLY_IN_FILE"
    s%"Verifies that only request and response types are the only types in the same file as their corresponding service."
    (visitWith (requestResponseTypesOnlyInFile env) {})

/-- internal/lint/check_request_response_types_unique.go:28-32. -/
def requestResponseTypesUniqueLinter : Linter :=
  newLinter s%"REQUEST_RESPONSE_TYPES_UNIQUE"
    s%"Verifies that all request and response types are unique to each RPC."
    (visitWith requestResponseTypesUnique [])

/-- internal/lint/check_request_response_names_match_rpc.go:28-32. -/
def requestResponseNamesMatchRPCLinter : Linter :=
  newLinter s%"REQUEST_RESPONSE_NAMES_MATCH_RPC"
    s%"Verifies that all request names are RpcNameRequest and all response names are RpcNameResponse."
    (visitWith requestResponseNamesMatchRPC ())

/-- internal/lint/check_services_have_comments.go:28-32. -/
def servicesHaveCommentsLinter : Linter :=
  newLinter s%"SERVICES_HAVE_COMMENTS"
    s%"Verifies that all services have a comment of the form \"// ServiceName ...\"."
    (visitWith servicesHaveComments ())

/-- internal/lint/check_services_have_sentence_comments.go:28-32. -/
def servicesHaveSentenceCommentsLinter : Linter :=
  newLinter s%"SERVICES_HAVE_SENTENCE_COMMENTS"
    s%"Verifies that all services have a comment that contains at least one complete sentence."
    (visitWith servicesHaveSentenceComments ())

/-- internal/lint/check_service_names_api_suffix.go:30-34. -/
def serviceNamesAPISuffixLinter : Linter :=
  newLinter s%"SERVICE_NAMES_API_SUFFIX"
    s%"Verifies that all service names end with \"API\"."
    (visitWith serviceNamesAPISuffix ())

/-- internal/lint/check_service_names_camel_case.go:29-33. -/
def serviceNamesCamelCaseLinter : Linter :=
  newLinter s%"SERVICE_NAMES_CAMEL_CASE"
    s%"Verifies that all service names are CamelCase."
    (visitWith serviceNamesCamelCase ())

/-- internal/lint/check_service_names_capitalized.go:29-33. -/
def serviceNamesCapitalizedLinter : Linter :=
  newLinter s%"SERVICE_NAMES_CAPITALIZED"
    s%"Verifies that all service names are Capitalized."
    (visitWith serviceNamesCapitalized ())

/-- internal/lint/check_service_names_match_file_name.go:31-35. -/
def serviceNamesMatchFileNameLinter : Linter :=
  newLinter s%"SERVICE_NAMES_MATCH_FILE_NAME"
    s%"Verifies that there is one service per file and the file name is service_name_lower_snake_case.proto."
    (visitWith serviceNamesMatchFileName {})

/-- internal/lint/check_service_names_singular.go:33-38. -/
def serviceNamesNoPluralsLinter (env : Env) : Linter :=
  newSuppressableLinter s%"SERVICE_NAMES_NO_PLURALS"
    s%"Verifies that all CamelCase service names do not contain plural components."
    s%"plurals" (visitWith (serviceNamesNoPlurals env) none)

/-- internal/lint/check_syntax_proto3.go:30-34. -/
def syntaxProto3Linter (env : Env) : Linter :=
  newLinter s%"SYNTAX_PROTO3"
    s%"Verifies that the syntax is proto3."
    (visitWith (syntaxProto3 env) {})

/-- internal/lint/check_wkt_directly_imported.go:35-39. -/
def wktDirectlyImportedLinter (env : Env) : Linter :=
  newLinter s%"WKT_DIRECTLY_IMPORTED"
    s%"Verifies that the Well-Known Types are directly imported using \"google/protobuf/\" as the base of the import."
    (visitWith (wktDirectlyImported env) ())

/-- internal/lint/check_wkt_duration_suffix.go:30-34. -/
def wktDurationSuffixLinter : Linter :=
  newLinter s%"WKT_DURATION_SUFFIX"
    s%"Verifies that all google.protobuf.Duration field names are \"duration\" or end in \"_duration\"."
    (visitWith wktDurationSuffix ())

/-- internal/lint/check_wkt_timestamp_suffix.go:30-34. -/
def wktTimestampSuffixLinter : Linter :=
  newLinter s%"WKT_TIMESTAMP_SUFFIX"
    s%"Verifies that all google.protobuf.Timestamp field names are \"time\" or end in \"_time\"."
    (visitWith wktTimestampSuffix ())

/-! ## The tables -/

/-- `AllLinters`, internal/lint/lint.go:40-137. -/
def allLinters (env : Env) : List Linter :=
  [commentsNoCStyleLinter,
   commentsNoInlineLinter,
   enumFieldNamesUppercaseLinter,
   enumFieldNamesUpperSnakeCaseLinter,
   enumFieldPrefixesLinter,
   enumFieldPrefixesExceptMessageLinter,
   enumFieldsHaveCommentsLinter,
   enumFieldsHaveSentenceCommentsLinter,
   enumNamesCamelCaseLinter,
   enumNamesCapitalizedLinter,
   enumZeroValuesInvalidLinter,
   enumZeroValuesInvalidExceptMessageLinter,
   enumsHaveCommentsLinter,
   enumsHaveSentenceCommentsLinter,
   enumsNoAllowAliasLinter,
   fieldsNotReservedLinter,
   fileHeaderLinter,
   fileNamesLowerSnakeCaseLinter,
   fileOptionsCSharpNamespaceSameInDirLinter env,
   fileOptionsEqualCSharpNamespaceCapitalizedLinter,
   fileOptionsEqualGoPackageV2SuffixLinter,
   fileOptionsEqualGoPackagePbSuffixLinter,
   fileOptionsEqualJavaMultipleFilesTrueLinter,
   fileOptionsEqualJavaOuterClassnameProtoSuffixLinter,
   fileOptionsEqualJavaPackageComPrefixLinter,
   fileOptionsEqualJavaPackagePrefixLinter,
   fileOptionsEqualOBJCClassPrefixAbbrLinter,
   fileOptionsEqualPHPNamespaceCapitalizedLinter,
   fileOptionsGoPackageNotLongFormLinter,
   fileOptionsGoPackageSameInDirLinter env,
   fileOptionsJavaMultipleFilesSameInDirLinter env,
   fileOptionsJavaPackageSameInDirLinter env,
   fileOptionsOBJCClassPrefixSameInDirLinter env,
   fileOptionsPHPNamespaceSameInDirLinter env,
   fileOptionsRequireCSharpNamespaceLinter,
   fileOptionsRequireGoPackageLinter,
   fileOptionsRequireJavaMultipleFilesLinter,
   fileOptionsRequireJavaOuterClassnameLinter,
   fileOptionsRequireJavaPackageLinter,
   fileOptionsRequireOBJCClassPrefixLinter,
   fileOptionsRequirePHPNamespaceLinter,
   fileOptionsRequireRubyPackageLinter,
   fileOptionsUnsetJavaMultipleFilesLinter,
   fileOptionsUnsetJavaOuterClassnameLinter,
   gogoNotImportedLinter,
   importsNotPublicLinter,
   importsNotWeakLinter,
   messageFieldsDurationLinter,
   messageFieldsHaveCommentsLinter,
   messageFieldsHaveSentenceCommentsLinter,
   messageFieldsNotFloatsLinter,
   messageFieldsNoJSONNameLinter,
   messageFieldsTimeLinter,
   messageFieldNamesFilenameLinter,
   messageFieldNamesFilepathLinter,
   messageFieldNamesLowerSnakeCaseLinter,
   messageFieldNamesLowercaseLinter,
   messageFieldNamesNoDescriptorLinter,
   messageNamesCamelCaseLinter,
   messageNamesCapitalizedLinter,
   messagesHaveCommentsLinter,
   messagesHaveCommentsExceptRequestResponseTypesLinter env,
   messagesHaveSentenceCommentsExceptRequestResponseTypesLinter env,
   messagesNotEmptyExceptRequestResponseTypesLinter env,
   namesNoCommonLinter,
   namesNoDataLinter,
   namesNoUUIDLinter,
   oneofNamesLowerSnakeCaseLinter,
   packageIsDeclaredLinter env,
   packageLowerCaseLinter env,
   packageLowerSnakeCaseLinter env,
   packageMajorBetaVersionedLinter env,
   packageNoKeywordsLinter,
   packagesSameInDirLinter env,
   rpcsHaveCommentsLinter,
   rpcsHaveSentenceCommentsLinter,
   rpcsNoStreamingLinter,
   rpcNamesCamelCaseLinter,
   rpcNamesCapitalizedLinter,
   rpcOptionsNoGoogleAPIHTTPLinter,
   requestResponseTypesAfterServiceLinter,
   requestResponseTypesInSameFileLinter,
   requestResponseTypesOnlyInFileLinter env,
   requestResponseTypesUniqueLinter,
   requestResponseNamesMatchRPCLinter,
   servicesHaveCommentsLinter,
   servicesHaveSentenceCommentsLinter,
   serviceNamesAPISuffixLinter,
   serviceNamesCamelCaseLinter,
   serviceNamesCapitalizedLinter,
   serviceNamesMatchFileNameLinter,
   serviceNamesNoPluralsLinter env,
   syntaxProto3Linter env,
   wktDirectlyImportedLinter env,
   wktDurationSuffixLinter,
   wktTimestampSuffixLinter]

/-- `GoogleLinters`, internal/lint/lint.go:143-155. -/
def googleLinters (env : Env) : List Linter :=
  [enumFieldNamesUpperSnakeCaseLinter,
   enumNamesCamelCaseLinter,
   enumNamesCapitalizedLinter,
   fileHeaderLinter,
   messageFieldNamesLowerSnakeCaseLinter,
   messageNamesCamelCaseLinter,
   messageNamesCapitalizedLinter,
   rpcNamesCamelCaseLinter,
   rpcNamesCapitalizedLinter,
   serviceNamesCamelCaseLinter,
   serviceNamesCapitalizedLinter]

/-- `Uber1Linters`, internal/lint/lint.go:158-194. -/
def uber1Linters (env : Env) : List Linter :=
  [commentsNoCStyleLinter,
   enumFieldNamesUpperSnakeCaseLinter,
   enumFieldPrefixesLinter,
   enumNamesCamelCaseLinter,
   enumNamesCapitalizedLinter,
   enumZeroValuesInvalidLinter,
   enumsNoAllowAliasLinter,
   fileHeaderLinter,
   fileOptionsEqualGoPackagePbSuffixLinter,
   fileOptionsEqualJavaMultipleFilesTrueLinter,
   fileOptionsEqualJavaOuterClassnameProtoSuffixLinter,
   fileOptionsEqualJavaPackageComPrefixLinter,
   fileOptionsGoPackageNotLongFormLinter,
   fileOptionsGoPackageSameInDirLinter env,
   fileOptionsJavaMultipleFilesSameInDirLinter env,
   fileOptionsJavaPackageSameInDirLinter env,
   fileOptionsRequireGoPackageLinter,
   fileOptionsRequireJavaMultipleFilesLinter,
   fileOptionsRequireJavaOuterClassnameLinter,
   fileOptionsRequireJavaPackageLinter,
   messageFieldNamesLowerSnakeCaseLinter,
   messageNamesCamelCaseLinter,
   messageNamesCapitalizedLinter,
   oneofNamesLowerSnakeCaseLinter,
   packageIsDeclaredLinter env,
   packageLowerSnakeCaseLinter env,
   packagesSameInDirLinter env,
   rpcNamesCamelCaseLinter,
   rpcNamesCapitalizedLinter,
   requestResponseTypesInSameFileLinter,
   requestResponseTypesUniqueLinter,
   serviceNamesCamelCaseLinter,
   serviceNamesCapitalizedLinter,
   syntaxProto3Linter env,
   wktDirectlyImportedLinter env]

/-- `Uber2Linters`, internal/lint/lint.go:197-267. -/
def uber2Linters (env : Env) : List Linter :=
  [commentsNoCStyleLinter,
   commentsNoInlineLinter,
   enumFieldNamesUpperSnakeCaseLinter,
   enumFieldPrefixesExceptMessageLinter,
   enumNamesCamelCaseLinter,
   enumNamesCapitalizedLinter,
   enumZeroValuesInvalidExceptMessageLinter,
   enumsHaveSentenceCommentsLinter,
   enumsNoAllowAliasLinter,
   fieldsNotReservedLinter,
   fileHeaderLinter,
   fileNamesLowerSnakeCaseLinter,
   fileOptionsCSharpNamespaceSameInDirLinter env,
   fileOptionsEqualCSharpNamespaceCapitalizedLinter,
   fileOptionsEqualGoPackageV2SuffixLinter,
   fileOptionsEqualJavaMultipleFilesTrueLinter,
   fileOptionsEqualJavaOuterClassnameProtoSuffixLinter,
   fileOptionsEqualJavaPackagePrefixLinter,
   fileOptionsEqualOBJCClassPrefixAbbrLinter,
   fileOptionsEqualPHPNamespaceCapitalizedLinter,
   fileOptionsGoPackageNotLongFormLinter,
   fileOptionsGoPackageSameInDirLinter env,
   fileOptionsJavaMultipleFilesSameInDirLinter env,
   fileOptionsJavaPackageSameInDirLinter env,
   fileOptionsOBJCClassPrefixSameInDirLinter env,
   fileOptionsPHPNamespaceSameInDirLinter env,
   fileOptionsRequireCSharpNamespaceLinter,
   fileOptionsRequireGoPackageLinter,
   fileOptionsRequireJavaMultipleFilesLinter,
   fileOptionsRequireJavaOuterClassnameLinter,
   fileOptionsRequireJavaPackageLinter,
   fileOptionsRequireOBJCClassPrefixLinter,
   fileOptionsRequirePHPNamespaceLinter,
   importsNotPublicLinter,
   importsNotWeakLinter,
   messagesHaveSentenceCommentsExceptRequestResponseTypesLinter env,
   messageFieldNamesFilenameLinter,
   messageFieldNamesFilepathLinter,
   messageFieldNamesLowerSnakeCaseLinter,
   messageFieldNamesNoDescriptorLinter,
   messageFieldsNoJSONNameLinter,
   messageNamesCamelCaseLinter,
   messageNamesCapitalizedLinter,
   namesNoCommonLinter,
   namesNoDataLinter,
   namesNoUUIDLinter,
   oneofNamesLowerSnakeCaseLinter,
   packageIsDeclaredLinter env,
   packageLowerCaseLinter env,
   packageMajorBetaVersionedLinter env,
   packageNoKeywordsLinter,
   packagesSameInDirLinter env,
   rpcsHaveSentenceCommentsLinter,
   rpcNamesCamelCaseLinter,
   rpcNamesCapitalizedLinter,
   requestResponseNamesMatchRPCLinter,
   requestResponseTypesAfterServiceLinter,
   requestResponseTypesInSameFileLinter,
   requestResponseTypesOnlyInFileLinter env,
   requestResponseTypesUniqueLinter,
   servicesHaveSentenceCommentsLinter,
   serviceNamesAPISuffixLinter,
   serviceNamesCamelCaseLinter,
   serviceNamesCapitalizedLinter,
   serviceNamesMatchFileNameLinter,
   syntaxProto3Linter env,
   wktDirectlyImportedLinter env,
   wktDurationSuffixLinter,
   wktTimestampSuffixLinter]

/-- `EmptyLinters`, internal/lint/lint.go:270. -/
def emptyLinters : List Linter := []

/-- `DefaultLinters`, internal/lint/lint.go:140. -/
def defaultLinters (env : Env) : List Linter := uber1Linters env

/-- `GroupToLinters`, internal/lint/lint.go:273-278. -/
def groupToLinters (env : Env) : GoMap Str (List Linter) :=
  [(s%"google", googleLinters env), (s%"uber1", uber1Linters env),
   (s%"uber2", uber2Linters env), (s%"empty", emptyLinters)]

/-- `checkLintID`, internal/lint/lint.go:527-532, with `allLintIDs` filled by `init`,
:283-290. The result is the error. -/
def checkLintID (env : Env) (lintID : Str) : Option Err :=
  if lintID ∈ (allLinters env).map (·.id) then none
  else some (s%"unknown lint id in configuration file: " ++ lintID)

/-- The choice of the group in `GetLinters`, internal/lint/lint.go:369-379. -/
def groupLinters (env : Env) (config : Settings.LintConfig) : Except Err (List Linter) :=
  if config.group ≠ [] then
    match GoMap.get? (groupToLinters env) config.group with
    | some ls => .ok ls
    | none => .error (s%"unknown lint group: " ++ config.group)
  else if !config.noDefault then .ok (defaultLinters env)
  else .ok []

/-- `linterMap` of `GetLinters`, internal/lint/lint.go:399-416. -/
def linterMap (env : Env) (config : Settings.LintConfig) (linters : List Linter) :
    GoMap Str Linter :=
  let m := linters.foldl (fun m l => GoMap.set m l.id l) []
  let m := (allLinters env).foldl (fun m l => config.includeIDs.foldl (fun m id =>
    if l.id = id then GoMap.set m id l else m) m) m
  config.excludeIDs.foldl (fun m id => GoMap.delete m id) m

/-- `GetLinters`, internal/lint/lint.go:368-422. -/
def getLinters (env : Env) (config : Settings.LintConfig) : Except Err (List Linter) :=
  match groupLinters env config with
  | .error e => .error e
  | .ok linters =>
    match config.includeIDs.findSome? (checkLintID env) with
    | some e => .error e
    | none =>
      match config.excludeIDs.findSome? (checkLintID env) with
      | some e => .error e
      | none =>
        match (env.order.ord [s%"GetLinters", s%"ignores"]
            (GoMap.keys config.ignoreIDToFilePaths)).findSome? (checkLintID env) with
        | some e => .error e
        | none =>
          if config.includeIDs.length = 0 && config.excludeIDs.length = 0 then .ok linters
          else .ok ((env.order.ord [s%"GetLinters", s%"linters"]
            (linterMap env config linters)).map (·.2))

end Verif.Lint
