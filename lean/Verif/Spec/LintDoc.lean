import Verif.Go.Str

/-!
# Specification: the table of lint rules of docs/lint.md, lines 149-246

Written down from the documentation, not from the code.
-/

namespace Verif.Spec

open Verif

/-- The lint groups of the documentation, docs/lint.md:12-22 and :42. -/
def docGroups : List Str := [s%"google", s%"uber1", s%"uber2", s%"empty"]

/-- The rows: the rule and the groups it is in. -/
def docRules : List (Str × List Str) := [
  (s%"COMMENTS_NO_C_STYLE", [s%"uber1", s%"uber2"]),
  (s%"COMMENTS_NO_INLINE", [s%"uber2"]),
  (s%"ENUM_FIELD_NAMES_UPPER_SNAKE_CASE", [s%"google", s%"uber1", s%"uber2"]),
  (s%"ENUM_FIELD_NAMES_UPPERCASE", []),
  (s%"ENUM_FIELD_PREFIXES_EXCEPT_MESSAGE", [s%"uber2"]),
  (s%"ENUM_FIELD_PREFIXES", [s%"uber1"]),
  (s%"ENUM_FIELDS_HAVE_COMMENTS", []),
  (s%"ENUM_FIELDS_HAVE_SENTENCE_COMMENTS", []),
  (s%"ENUM_NAMES_CAMEL_CASE", [s%"google", s%"uber1", s%"uber2"]),
  (s%"ENUM_NAMES_CAPITALIZED", [s%"google", s%"uber1", s%"uber2"]),
  (s%"ENUM_ZERO_VALUES_INVALID_EXCEPT_MESSAGE", [s%"uber2"]),
  (s%"ENUM_ZERO_VALUES_INVALID", [s%"uber1"]),
  (s%"ENUMS_HAVE_COMMENTS", []),
  (s%"ENUMS_HAVE_SENTENCE_COMMENTS", [s%"uber2"]),
  (s%"ENUMS_NO_ALLOW_ALIAS", [s%"uber1", s%"uber2"]),
  (s%"FIELDS_NOT_RESERVED", [s%"uber2"]),
  (s%"FILE_HEADER", [s%"google", s%"uber1", s%"uber2"]),
  (s%"FILE_NAMES_LOWER_SNAKE_CASE", [s%"uber2"]),
  (s%"FILE_OPTIONS_EQUAL_CSHARP_NAMESPACE_CAPITALIZED", [s%"uber2"]),
  (s%"FILE_OPTIONS_EQUAL_GO_PACKAGE_PB_SUFFIX", [s%"uber1"]),
  (s%"FILE_OPTIONS_EQUAL_GO_PACKAGE_V2_SUFFIX", [s%"uber2"]),
  (s%"FILE_OPTIONS_EQUAL_JAVA_MULTIPLE_FILES_TRUE", [s%"uber1", s%"uber2"]),
  (s%"FILE_OPTIONS_EQUAL_JAVA_OUTER_CLASSNAME_PROTO_SUFFIX", [s%"uber1", s%"uber2"]),
  (s%"FILE_OPTIONS_EQUAL_JAVA_PACKAGE_COM_PREFIX", [s%"uber1"]),
  (s%"FILE_OPTIONS_EQUAL_JAVA_PACKAGE_PREFIX", [s%"uber2"]),
  (s%"FILE_OPTIONS_EQUAL_OBJC_CLASS_PREFIX_ABBR", [s%"uber2"]),
  (s%"FILE_OPTIONS_EQUAL_PHP_NAMESPACE_CAPITALIZED", [s%"uber2"]),
  (s%"FILE_OPTIONS_REQUIRE_CSHARP_NAMESPACE", [s%"uber2"]),
  (s%"FILE_OPTIONS_REQUIRE_GO_PACKAGE", [s%"uber1", s%"uber2"]),
  (s%"FILE_OPTIONS_REQUIRE_JAVA_MULTIPLE_FILES", [s%"uber1", s%"uber2"]),
  (s%"FILE_OPTIONS_REQUIRE_JAVA_OUTER_CLASSNAME", [s%"uber1", s%"uber2"]),
  (s%"FILE_OPTIONS_REQUIRE_JAVA_PACKAGE", [s%"uber1", s%"uber2"]),
  (s%"FILE_OPTIONS_REQUIRE_OBJC_CLASS_PREFIX", [s%"uber2"]),
  (s%"FILE_OPTIONS_REQUIRE_PHP_NAMESPACE", [s%"uber2"]),
  (s%"FILE_OPTIONS_REQUIRE_RUBY_PACKAGE", []),
  (s%"FILE_OPTIONS_CSHARP_NAMESPACE_SAME_IN_DIR", [s%"uber2"]),
  (s%"FILE_OPTIONS_GO_PACKAGE_SAME_IN_DIR", [s%"uber1", s%"uber2"]),
  (s%"FILE_OPTIONS_JAVA_MULTIPLE_FILES_SAME_IN_DIR", [s%"uber1", s%"uber2"]),
  (s%"FILE_OPTIONS_JAVA_PACKAGE_SAME_IN_DIR", [s%"uber1", s%"uber2"]),
  (s%"FILE_OPTIONS_OBJC_CLASS_PREFIX_SAME_IN_DIR", [s%"uber2"]),
  (s%"FILE_OPTIONS_PHP_NAMESPACE_SAME_IN_DIR", [s%"uber2"]),
  (s%"FILE_OPTIONS_UNSET_JAVA_MULTIPLE_FILES", []),
  (s%"FILE_OPTIONS_UNSET_JAVA_OUTER_CLASSNAME", []),
  (s%"FILE_OPTIONS_GO_PACKAGE_NOT_LONG_FORM", [s%"uber1", s%"uber2"]),
  (s%"GOGO_NOT_IMPORTED", []),
  (s%"IMPORTS_NOT_PUBLIC", [s%"uber2"]),
  (s%"IMPORTS_NOT_WEAK", [s%"uber2"]),
  (s%"MESSAGE_FIELD_NAMES_FILENAME", [s%"uber2"]),
  (s%"MESSAGE_FIELD_NAMES_FILEPATH", [s%"uber2"]),
  (s%"MESSAGE_FIELD_NAMES_LOWER_SNAKE_CASE", [s%"google", s%"uber1", s%"uber2"]),
  (s%"MESSAGE_FIELD_NAMES_LOWERCASE", []),
  (s%"MESSAGE_FIELD_NAMES_NO_DESCRIPTOR", [s%"uber2"]),
  (s%"MESSAGE_FIELDS_DURATION", []),
  (s%"MESSAGE_FIELDS_HAVE_COMMENTS", []),
  (s%"MESSAGE_FIELDS_HAVE_SENTENCE_COMMENTS", []),
  (s%"MESSAGE_FIELDS_NO_JSON_NAME", [s%"uber2"]),
  (s%"MESSAGE_FIELDS_NOT_FLOATS", []),
  (s%"MESSAGE_FIELDS_TIME", []),
  (s%"MESSAGE_NAMES_CAMEL_CASE", [s%"google", s%"uber1", s%"uber2"]),
  (s%"MESSAGE_NAMES_CAPITALIZED", [s%"google", s%"uber1", s%"uber2"]),
  (s%"MESSAGES_HAVE_COMMENTS_EXCEPT_REQUEST_RESPONSE_TYPES", []),
  (s%"MESSAGES_HAVE_COMMENTS", []),
  (s%"MESSAGES_HAVE_SENTENCE_COMMENTS_EXCEPT_REQUEST_RESPONSE_TYPES", [s%"uber2"]),
  (s%"MESSAGES_NOT_EMPTY_EXCEPT_REQUEST_RESPONSE_TYPES", []),
  (s%"NAMES_NO_COMMON", [s%"uber2"]),
  (s%"NAMES_NO_DATA", [s%"uber2"]),
  (s%"NAMES_NO_UUID", [s%"uber2"]),
  (s%"ONEOF_NAMES_LOWER_SNAKE_CASE", [s%"uber1", s%"uber2"]),
  (s%"PACKAGE_IS_DECLARED", [s%"uber1", s%"uber2"]),
  (s%"PACKAGE_LOWER_CASE", [s%"uber2"]),
  (s%"PACKAGE_LOWER_SNAKE_CASE", [s%"uber1"]),
  (s%"PACKAGE_MAJOR_BETA_VERSIONED", [s%"uber2"]),
  (s%"PACKAGE_NO_KEYWORDS", [s%"uber2"]),
  (s%"PACKAGES_SAME_IN_DIR", [s%"uber1", s%"uber2"]),
  (s%"REQUEST_RESPONSE_NAMES_MATCH_RPC", [s%"uber2"]),
  (s%"REQUEST_RESPONSE_TYPES_AFTER_SERVICE", [s%"uber2"]),
  (s%"REQUEST_RESPONSE_TYPES_IN_SAME_FILE", [s%"uber1", s%"uber2"]),
  (s%"REQUEST_RESPONSE_TYPES_ONLY_IN_FILE", [s%"uber2"]),
  (s%"REQUEST_RESPONSE_TYPES_UNIQUE", [s%"uber1", s%"uber2"]),
  (s%"RPC_NAMES_CAMEL_CASE", [s%"google", s%"uber1", s%"uber2"]),
  (s%"RPC_NAMES_CAPITALIZED", [s%"google", s%"uber1", s%"uber2"]),
  (s%"RPC_OPTIONS_NO_GOOGLE_API_HTTP", []),
  (s%"RPCS_HAVE_COMMENTS", []),
  (s%"RPCS_HAVE_SENTENCE_COMMENTS", [s%"uber2"]),
  (s%"RPCS_NO_STREAMING", []),
  (s%"SERVICE_NAMES_API_SUFFIX", [s%"uber2"]),
  (s%"SERVICE_NAMES_CAMEL_CASE", [s%"google", s%"uber1", s%"uber2"]),
  (s%"SERVICE_NAMES_CAPITALIZED", [s%"google", s%"uber1", s%"uber2"]),
  (s%"SERVICE_NAMES_MATCH_FILE_NAME", [s%"uber2"]),
  (s%"SERVICE_NAMES_NO_PLURALS", []),
  (s%"SERVICES_HAVE_COMMENTS", []),
  (s%"SERVICES_HAVE_SENTENCE_COMMENTS", [s%"uber2"]),
  (s%"SYNTAX_PROTO3", [s%"uber1", s%"uber2"]),
  (s%"WKT_DIRECTLY_IMPORTED", [s%"uber1", s%"uber2"]),
  (s%"WKT_DURATION_SUFFIX", [s%"uber2"]),
  (s%"WKT_TIMESTAMP_SUFFIX", [s%"uber2"])]

/-- The documentation has a rule of this name. -/
def DocRule (id : Str) : Prop := ∃ row ∈ docRules, row.1 = id

/-- The documentation puts the rule into the group. -/
def DocInGroup (group id : Str) : Prop := ∃ row ∈ docRules, row.1 = id ∧ group ∈ row.2

end Verif.Spec
