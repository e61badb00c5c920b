import Verif.Go.Str
import Verif.Model.Settings

/-!
# Specification: the listings of lint rules

`prototool lint --list-linters` and its relatives print one rule per line, the name and then what the
rule is for.
-/

namespace Verif.Spec

open Verif

set_option maxRecDepth 100000 in
/-- What each rule is for, in the order of the documentation. -/
def rulePurposes : List (Str × Str) := [
  (s%"COMMENTS_NO_C_STYLE",
    s%"Verifies that there are no /* c-style */ comments."),
  (s%"COMMENTS_NO_INLINE",
    s%"Verifies that there are no inline comments."),
  (s%"ENUM_FIELD_NAMES_UPPER_SNAKE_CASE",
    s%"Verifies that all enum field names are UPPER_SNAKE_CASE."),
  (s%"ENUM_FIELD_NAMES_UPPERCASE",
    s%"Verifies that all enum field names are UPPERCASE."),
  (s%"ENUM_FIELD_PREFIXES_EXCEPT_MESSAGE",
    s%"Verifies that all enum fields are prefixed with ENUM_NAME_."),
  (s%"ENUM_FIELD_PREFIXES",
    s%"Verifies that all enum fields are prefixed with [NESTED_MESSAGE_NAME_]ENUM_NAME_."),
  (s%"ENUM_FIELDS_HAVE_COMMENTS",
    s%"Verifies that all enum fields have a comment of the form \"// FIELD_NAME ...\"."),
  (s%"ENUM_FIELDS_HAVE_SENTENCE_COMMENTS",
    s%"Verifies that all enum fields have a comment that contains at least one complete sentence."),
  (s%"ENUM_NAMES_CAMEL_CASE",
    s%"Verifies that all enum names are CamelCase."),
  (s%"ENUM_NAMES_CAPITALIZED",
    s%"Verifies that all enum names are Capitalized."),
  (s%"ENUM_ZERO_VALUES_INVALID_EXCEPT_MESSAGE",
    s%"Verifies that all enum zero value names are ENUM_NAME_INVALID."),
  (s%"ENUM_ZERO_VALUES_INVALID",
    s%"Verifies that all enum zero value names are [NESTED_MESSAGE_NAME_]ENUM_NAME_INVALID."),
  (s%"ENUMS_HAVE_COMMENTS",
    s%"Verifies that all enums have a comment of the form \"// EnumName ...\"."),
  (s%"ENUMS_HAVE_SENTENCE_COMMENTS",
    s%"Verifies that all enums have a comment that contains at least one complete sentence."),
  (s%"ENUMS_NO_ALLOW_ALIAS",
    s%"Verifies that no enums use the option \"allow_alias\"."),
  (s%"FIELDS_NOT_RESERVED",
    s%"Verifies that no message or enum has a reserved field."),
  (s%"FILE_HEADER",
    s%"Verifies that the file header matches the expected file header if the file_header option is set in the configuration file."),
  (s%"FILE_NAMES_LOWER_SNAKE_CASE",
    s%"Verifies that the file name is lower_snake_case.proto."),
  (s%"FILE_OPTIONS_EQUAL_CSHARP_NAMESPACE_CAPITALIZED",
    s%"Verifies that the file option \"csharp_namespace\" is the capitalized version of the package."),
  (s%"FILE_OPTIONS_EQUAL_GO_PACKAGE_PB_SUFFIX",
    s%"Verifies that the file option \"go_package\" is equal to $(basename PACKAGE)pb."),
  (s%"FILE_OPTIONS_EQUAL_GO_PACKAGE_V2_SUFFIX",
    s%"Verifies that the file option \"go_package\" is equal to the last two values of the package separated by \".\"s, or just the package name if there are no \".\"s."),
  (s%"FILE_OPTIONS_EQUAL_JAVA_MULTIPLE_FILES_TRUE",
    s%"Verifies that the file option \"java_multiple_files\" is equal to true."),
  (s%"FILE_OPTIONS_EQUAL_JAVA_OUTER_CLASSNAME_PROTO_SUFFIX",
    s%"Verifies that the file option \"java_outer_classname\" is equal to $(upperCamelCase $(basename FILE))Proto."),
  (s%"FILE_OPTIONS_EQUAL_JAVA_PACKAGE_COM_PREFIX",
    s%"Verifies that the file option \"java_package\" is equal to com.PACKAGE."),
  (s%"FILE_OPTIONS_EQUAL_JAVA_PACKAGE_PREFIX",
    s%"Verifies that the file option \"java_package\" is equal to PREFIX.PACKAGE, with PREFIX defaulting to \"com\" and configurable in your configuration file."),
  (s%"FILE_OPTIONS_EQUAL_OBJC_CLASS_PREFIX_ABBR",
    s%"Verifies that the file option \"objc_class_prefix\" is the abbreviated version of the package."),
  (s%"FILE_OPTIONS_EQUAL_PHP_NAMESPACE_CAPITALIZED",
    s%"Verifies that the file option \"php_namespace\" is the capitalized version of the package."),
  (s%"FILE_OPTIONS_REQUIRE_CSHARP_NAMESPACE",
    s%"Verifies that the file option \"csharp_namespace\" is set."),
  (s%"FILE_OPTIONS_REQUIRE_GO_PACKAGE",
    s%"Verifies that the file option \"go_package\" is set."),
  (s%"FILE_OPTIONS_REQUIRE_JAVA_MULTIPLE_FILES",
    s%"Verifies that the file option \"java_multiple_files\" is set."),
  (s%"FILE_OPTIONS_REQUIRE_JAVA_OUTER_CLASSNAME",
    s%"Verifies that the file option \"java_outer_classname\" is set."),
  (s%"FILE_OPTIONS_REQUIRE_JAVA_PACKAGE",
    s%"Verifies that the file option \"java_package\" is set."),
  (s%"FILE_OPTIONS_REQUIRE_OBJC_CLASS_PREFIX",
    s%"Verifies that the file option \"objc_class_prefix\" is set."),
  (s%"FILE_OPTIONS_REQUIRE_PHP_NAMESPACE",
    s%"Verifies that the file option \"php_namespace\" is set."),
  (s%"FILE_OPTIONS_REQUIRE_RUBY_PACKAGE",
    s%"Verifies that the file option \"ruby_package\" is set."),
  (s%"FILE_OPTIONS_CSHARP_NAMESPACE_SAME_IN_DIR",
    s%"Verifies that the file option \"csharp_namespace\" of all files in a directory are the same."),
  (s%"FILE_OPTIONS_GO_PACKAGE_SAME_IN_DIR",
    s%"Verifies that the file option \"go_package\" of all files in a directory are the same."),
  (s%"FILE_OPTIONS_JAVA_MULTIPLE_FILES_SAME_IN_DIR",
    s%"Verifies that the file option \"java_multiple_files\" of all files in a directory are the same."),
  (s%"FILE_OPTIONS_JAVA_PACKAGE_SAME_IN_DIR",
    s%"Verifies that the file option \"java_package\" of all files in a directory are the same."),
  (s%"FILE_OPTIONS_OBJC_CLASS_PREFIX_SAME_IN_DIR",
    s%"Verifies that the file option \"objc_class_prefix\" of all files in a directory are the same."),
  (s%"FILE_OPTIONS_PHP_NAMESPACE_SAME_IN_DIR",
    s%"Verifies that the file option \"php_namespace\" of all files in a directory are the same."),
  (s%"FILE_OPTIONS_UNSET_JAVA_MULTIPLE_FILES",
    s%"Verifies that the file option \"java_multiple_files\" is unset."),
  (s%"FILE_OPTIONS_UNSET_JAVA_OUTER_CLASSNAME",
    s%"Verifies that the file option \"java_outer_classname\" is unset."),
  (s%"FILE_OPTIONS_GO_PACKAGE_NOT_LONG_FORM",
    s%"Verifies that the file option \"go_package\" is not of the form \"go/import/path;package\"."),
  (s%"GOGO_NOT_IMPORTED",
    s%"Verifies that the \"gogo.proto\" file from gogo/protobuf is not imported."),
  (s%"IMPORTS_NOT_PUBLIC",
    s%"Verifies that there are no public imports."),
  (s%"IMPORTS_NOT_WEAK",
    s%"Verifies that there are no weak imports."),
  (s%"MESSAGE_FIELD_NAMES_FILENAME",
    s%"Verifies that all message field names do not contain \"file_name\" as \"filename\" should be used instead."),
  (s%"MESSAGE_FIELD_NAMES_FILEPATH",
    s%"Verifies that all message field names do not contain \"file_path\" as \"filepath\" should be used instead."),
  (s%"MESSAGE_FIELD_NAMES_LOWER_SNAKE_CASE",
    s%"Verifies that all message field names are lower_snake_case."),
  (s%"MESSAGE_FIELD_NAMES_LOWERCASE",
    s%"Verifies that all message field names are lowercase."),
  (s%"MESSAGE_FIELD_NAMES_NO_DESCRIPTOR",
    s%"Verifies that all message field names are not \"descriptor\", which results in a collision in Java-generated code."),
  (s%"MESSAGE_FIELDS_DURATION",
    s%"Verifies that all non-map fields that contain \"duration\" in their name are google.protobuf.Durations."),
  (s%"MESSAGE_FIELDS_HAVE_COMMENTS",
    s%"Verifies that all message fields have a comment of the form \"// field_name ...\"."),
  (s%"MESSAGE_FIELDS_HAVE_SENTENCE_COMMENTS",
    s%"Verifies that all message fields have a comment that contains at least one complete sentence."),
  (s%"MESSAGE_FIELDS_NO_JSON_NAME",
    s%"Verifies that no message field has the \"json_name\" option set."),
  (s%"MESSAGE_FIELDS_NOT_FLOATS",
    s%"Verifies that all message fields are not floats."),
  (s%"MESSAGE_FIELDS_TIME",
    s%"Verifies that all non-map fields that contain \"time\" in their name are google.protobuf.Timestamps."),
  (s%"MESSAGE_NAMES_CAMEL_CASE",
    s%"Verifies that all non-extended message names are CamelCase."),
  (s%"MESSAGE_NAMES_CAPITALIZED",
    s%"Verifies that all non-extended message names are Capitalized."),
  (s%"MESSAGES_HAVE_COMMENTS_EXCEPT_REQUEST_RESPONSE_TYPES",
    s%"Verifies that all non-extended messages except for request and response types have a comment of the form \"// MessageName ...\"."),
  (s%"MESSAGES_HAVE_COMMENTS",
    s%"Verifies that all non-extended messages have a comment of the form \"// MessageName ...\"."),
  (s%"MESSAGES_HAVE_SENTENCE_COMMENTS_EXCEPT_REQUEST_RESPONSE_TYPES",
    s%"Verifies that all non-extended messages except for request and response types have a comment that contains at least one complete sentence."),
  (s%"MESSAGES_NOT_EMPTY_EXCEPT_REQUEST_RESPONSE_TYPES",
    s%"Verifies that all messages except for request and response types are not empty."),
  (s%"NAMES_NO_COMMON",
    s%"Verifies that no type name contains the word \"common\"."),
  (s%"NAMES_NO_DATA",
    s%"Verifies that no type name contains the word \"data\"."),
  (s%"NAMES_NO_UUID",
    s%"Verifies that no type name contains the word \"uuid\"."),
  (s%"ONEOF_NAMES_LOWER_SNAKE_CASE",
    s%"Verifies that all oneof names are lower_snake_case."),
  (s%"PACKAGE_IS_DECLARED",
    s%"Verifies that there is a package declaration."),
  (s%"PACKAGE_LOWER_CASE",
    s%"Verifies that the package name only contains characters in the range a-z0-9 and periods."),
  (s%"PACKAGE_LOWER_SNAKE_CASE",
    s%"Verifies that the package is lower_snake.case."),
  (s%"PACKAGE_MAJOR_BETA_VERSIONED",
    s%"Verifies that the package is of the form \"package.vMAJORVERSION\" or \"package.vMAJORVERSIONbetaBETAVERSION\" with versions >=1."),
  (s%"PACKAGE_NO_KEYWORDS",
    s%"Verifies that no packages contain one of the keywords \"internal,public,private,protected,std\" as part of the name when split on '.'."),
  (s%"PACKAGES_SAME_IN_DIR",
    s%"Verifies that the packages of all files in a directory are the same."),
  (s%"REQUEST_RESPONSE_NAMES_MATCH_RPC",
    s%"Verifies that all request names are RpcNameRequest and all response names are RpcNameResponse."),
  (s%"REQUEST_RESPONSE_TYPES_AFTER_SERVICE",
    s%"Verifies that request and response types are defined after any services and the response type is defined after the request type."),
  (s%"REQUEST_RESPONSE_TYPES_IN_SAME_FILE",
    s%"Verifies that all request and response types are in the same file as their corresponding service and are not nested messages."),
  (s%"REQUEST_RESPONSE_TYPES_ONLY_IN_FILE",
    s%"Verifies that only request and response types are the only types in the same file as their corresponding service."),
  (s%"REQUEST_RESPONSE_TYPES_UNIQUE",
    s%"Verifies that all request and response types are unique to each RPC."),
  (s%"RPC_NAMES_CAMEL_CASE",
    s%"Verifies that all RPC names are CamelCase."),
  (s%"RPC_NAMES_CAPITALIZED",
    s%"Verifies that all RPC names are Capitalized."),
  (s%"RPC_OPTIONS_NO_GOOGLE_API_HTTP",
    s%"Verifies that the RPC option \"google.api.http\" is not used."),
  (s%"RPCS_HAVE_COMMENTS",
    s%"Verifies that all rpcs have a comment of the form \"// RPCName ...\"."),
  (s%"RPCS_HAVE_SENTENCE_COMMENTS",
    s%"Verifies that all rpcs have a comment that contains at least one complete sentence."),
  (s%"RPCS_NO_STREAMING",
    s%"Verifies that all rpcs are unary."),
  (s%"SERVICE_NAMES_API_SUFFIX",
    s%"Verifies that all service names end with \"API\"."),
  (s%"SERVICE_NAMES_CAMEL_CASE",
    s%"Verifies that all service names are CamelCase."),
  (s%"SERVICE_NAMES_CAPITALIZED",
    s%"Verifies that all service names are Capitalized."),
  (s%"SERVICE_NAMES_MATCH_FILE_NAME",
    s%"Verifies that there is one service per file and the file name is service_name_lower_snake_case.proto."),
  (s%"SERVICE_NAMES_NO_PLURALS",
    s%"Verifies that all CamelCase service names do not contain plural components."),
  (s%"SERVICES_HAVE_COMMENTS",
    s%"Verifies that all services have a comment of the form \"// ServiceName ...\"."),
  (s%"SERVICES_HAVE_SENTENCE_COMMENTS",
    s%"Verifies that all services have a comment that contains at least one complete sentence."),
  (s%"SYNTAX_PROTO3",
    s%"Verifies that the syntax is proto3."),
  (s%"WKT_DIRECTLY_IMPORTED",
    s%"Verifies that the Well-Known Types are directly imported using \"google/protobuf/\" as the base of the import."),
  (s%"WKT_DURATION_SUFFIX",
    s%"Verifies that all google.protobuf.Duration field names are \"duration\" or end in \"_duration\"."),
  (s%"WKT_TIMESTAMP_SUFFIX",
    s%"Verifies that all google.protobuf.Timestamp field names are \"time\" or end in \"_time\".")]

/-- The rules that a comment can silence, and the word after `@suppresswarnings` that does it. -/
def ruleAnnotations : List (Str × Str) := [
  (s%"MESSAGE_FIELDS_NOT_FLOATS", s%"floats"),
  (s%"NAMES_NO_COMMON", s%"naming"),
  (s%"NAMES_NO_DATA", s%"naming"),
  (s%"NAMES_NO_UUID", s%"naming"),
  (s%"PACKAGE_NO_KEYWORDS", s%"keywords"),
  (s%"RPC_OPTIONS_NO_GOOGLE_API_HTTP", s%"google-api-http"),
  (s%"SERVICE_NAMES_NO_PLURALS", s%"plurals")]

/-- What a rule is for. -/
def rulePurpose (id : Str) : Str := (rulePurposes.lookup id).getD []

/-- The hint at the annotation that silences a rule. -/
def suppressHint (word : Str) : Str := s%"Suppressable with \"@suppresswarnings " ++ word ++ s%"\". "

/-- What a listing says of a rule: what the rule is for, after a hint at the annotation if there is one
and annotations are allowed. -/
def describedWith (allowed : Bool) (id : Str) : Str :=
  match ruleAnnotations.lookup id, allowed with
  | some word, true => suppressHint word ++ rulePurpose id
  | _, _ => rulePurpose id

/-- What a listing says of a rule under a configuration. -/
def described (config : Settings.LintConfig) (id : Str) : Str := describedWith config.allowSuppression id

/-- The two cells of a line: what stands before the first two blanks in a row, and what stands after
the blanks. -/
def cells : Str → Str × Str
  | [] => ([], [])
  | [c] => ([c], [])
  | c :: d :: rest =>
    if c = ' ' ∧ d = ' ' then ([], rest.dropWhile (· = ' '))
    else let r := cells (d :: rest); (c :: r.1, r.2)

/-- The lines of a text each of whose lines ends in a line break. -/
def listedLines : Str → List Str
  | [] => []
  | c :: rest =>
    if c = '\n' then [] :: listedLines rest
    else match listedLines rest with
      | [] => [[c]]
      | line :: lines => (c :: line) :: lines

/-- What a reader makes of a listing. -/
def readListing (text : Str) : List (Str × Str) := (listedLines text).map cells

/-- A cell that a reader can tell from the blanks around it: it is not empty, does not begin or end with
a blank, has no two blanks in a row and no line break. -/
def PlainCell (cell : Str) : Prop :=
  cell ≠ [] ∧ cell.head? ≠ some ' ' ∧ cell.getLast? ≠ some ' ' ∧ ¬[' ', ' '] <:+: cell ∧ '\n' ∉ cell

end Verif.Spec
