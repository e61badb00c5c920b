import Verif.Spec.LintConfig
import Verif.Model.LintConfig

/-! # The names of the linters, as literals -/

namespace Verif.Lint

open Verif Spec

theorem commentsNoCStyleLinter_id : (commentsNoCStyleLinter).id = s%"COMMENTS_NO_C_STYLE" := by
  unfold commentsNoCStyleLinter; rfl

theorem commentsNoInlineLinter_id : (commentsNoInlineLinter).id = s%"COMMENTS_NO_INLINE" := by
  unfold commentsNoInlineLinter; rfl

theorem enumFieldNamesUppercaseLinter_id : (enumFieldNamesUppercaseLinter).id = s%"ENUM_FIELD_NAMES_UPPERCASE" := by
  unfold enumFieldNamesUppercaseLinter; rfl

theorem enumFieldNamesUpperSnakeCaseLinter_id : (enumFieldNamesUpperSnakeCaseLinter).id = s%"ENUM_FIELD_NAMES_UPPER_SNAKE_CASE" := by
  unfold enumFieldNamesUpperSnakeCaseLinter; rfl

theorem enumFieldPrefixesLinter_id : (enumFieldPrefixesLinter).id = s%"ENUM_FIELD_PREFIXES" := by
  unfold enumFieldPrefixesLinter; rfl

theorem enumFieldPrefixesExceptMessageLinter_id : (enumFieldPrefixesExceptMessageLinter).id = s%"ENUM_FIELD_PREFIXES_EXCEPT_MESSAGE" := by
  unfold enumFieldPrefixesExceptMessageLinter; rfl

theorem enumFieldsHaveCommentsLinter_id : (enumFieldsHaveCommentsLinter).id = s%"ENUM_FIELDS_HAVE_COMMENTS" := by
  unfold enumFieldsHaveCommentsLinter; rfl

theorem enumFieldsHaveSentenceCommentsLinter_id : (enumFieldsHaveSentenceCommentsLinter).id = s%"ENUM_FIELDS_HAVE_SENTENCE_COMMENTS" := by
  unfold enumFieldsHaveSentenceCommentsLinter; rfl

theorem enumNamesCamelCaseLinter_id : (enumNamesCamelCaseLinter).id = s%"ENUM_NAMES_CAMEL_CASE" := by
  unfold enumNamesCamelCaseLinter; rfl

theorem enumNamesCapitalizedLinter_id : (enumNamesCapitalizedLinter).id = s%"ENUM_NAMES_CAPITALIZED" := by
  unfold enumNamesCapitalizedLinter; rfl

theorem enumZeroValuesInvalidLinter_id : (enumZeroValuesInvalidLinter).id = s%"ENUM_ZERO_VALUES_INVALID" := by
  unfold enumZeroValuesInvalidLinter; rfl

theorem enumZeroValuesInvalidExceptMessageLinter_id : (enumZeroValuesInvalidExceptMessageLinter).id = s%"ENUM_ZERO_VALUES_INVALID_EXCEPT_MESSAGE" := by
  unfold enumZeroValuesInvalidExceptMessageLinter; rfl

theorem enumsHaveCommentsLinter_id : (enumsHaveCommentsLinter).id = s%"ENUMS_HAVE_COMMENTS" := by
  unfold enumsHaveCommentsLinter; rfl

theorem enumsHaveSentenceCommentsLinter_id : (enumsHaveSentenceCommentsLinter).id = s%"ENUMS_HAVE_SENTENCE_COMMENTS" := by
  unfold enumsHaveSentenceCommentsLinter; rfl

theorem enumsNoAllowAliasLinter_id : (enumsNoAllowAliasLinter).id = s%"ENUMS_NO_ALLOW_ALIAS" := by
  unfold enumsNoAllowAliasLinter; rfl

theorem fieldsNotReservedLinter_id : (fieldsNotReservedLinter).id = s%"FIELDS_NOT_RESERVED" := by
  unfold fieldsNotReservedLinter; rfl

theorem fileHeaderLinter_id : (fileHeaderLinter).id = s%"FILE_HEADER" := by
  unfold fileHeaderLinter; rfl

theorem fileNamesLowerSnakeCaseLinter_id : (fileNamesLowerSnakeCaseLinter).id = s%"FILE_NAMES_LOWER_SNAKE_CASE" := by
  unfold fileNamesLowerSnakeCaseLinter; rfl

theorem fileOptionsCSharpNamespaceSameInDirLinter_id (env : Env) : (fileOptionsCSharpNamespaceSameInDirLinter env).id = s%"FILE_OPTIONS_CSHARP_NAMESPACE_SAME_IN_DIR" := by
  unfold fileOptionsCSharpNamespaceSameInDirLinter; rfl

theorem fileOptionsEqualCSharpNamespaceCapitalizedLinter_id : (fileOptionsEqualCSharpNamespaceCapitalizedLinter).id = s%"FILE_OPTIONS_EQUAL_CSHARP_NAMESPACE_CAPITALIZED" := by
  unfold fileOptionsEqualCSharpNamespaceCapitalizedLinter; rfl

theorem fileOptionsEqualGoPackageV2SuffixLinter_id : (fileOptionsEqualGoPackageV2SuffixLinter).id = s%"FILE_OPTIONS_EQUAL_GO_PACKAGE_V2_SUFFIX" := by
  unfold fileOptionsEqualGoPackageV2SuffixLinter; rfl

theorem fileOptionsEqualGoPackagePbSuffixLinter_id : (fileOptionsEqualGoPackagePbSuffixLinter).id = s%"FILE_OPTIONS_EQUAL_GO_PACKAGE_PB_SUFFIX" := by
  unfold fileOptionsEqualGoPackagePbSuffixLinter; rfl

theorem fileOptionsEqualJavaMultipleFilesTrueLinter_id : (fileOptionsEqualJavaMultipleFilesTrueLinter).id = s%"FILE_OPTIONS_EQUAL_JAVA_MULTIPLE_FILES_TRUE" := by
  unfold fileOptionsEqualJavaMultipleFilesTrueLinter; rfl

theorem fileOptionsEqualJavaOuterClassnameProtoSuffixLinter_id : (fileOptionsEqualJavaOuterClassnameProtoSuffixLinter).id = s%"FILE_OPTIONS_EQUAL_JAVA_OUTER_CLASSNAME_PROTO_SUFFIX" := by
  unfold fileOptionsEqualJavaOuterClassnameProtoSuffixLinter; rfl

theorem fileOptionsEqualJavaPackageComPrefixLinter_id : (fileOptionsEqualJavaPackageComPrefixLinter).id = s%"FILE_OPTIONS_EQUAL_JAVA_PACKAGE_COM_PREFIX" := by
  unfold fileOptionsEqualJavaPackageComPrefixLinter; rfl

theorem fileOptionsEqualJavaPackagePrefixLinter_id : (fileOptionsEqualJavaPackagePrefixLinter).id = s%"FILE_OPTIONS_EQUAL_JAVA_PACKAGE_PREFIX" := by
  unfold fileOptionsEqualJavaPackagePrefixLinter; rfl

theorem fileOptionsEqualOBJCClassPrefixAbbrLinter_id : (fileOptionsEqualOBJCClassPrefixAbbrLinter).id = s%"FILE_OPTIONS_EQUAL_OBJC_CLASS_PREFIX_ABBR" := by
  unfold fileOptionsEqualOBJCClassPrefixAbbrLinter; rfl

theorem fileOptionsEqualPHPNamespaceCapitalizedLinter_id : (fileOptionsEqualPHPNamespaceCapitalizedLinter).id = s%"FILE_OPTIONS_EQUAL_PHP_NAMESPACE_CAPITALIZED" := by
  unfold fileOptionsEqualPHPNamespaceCapitalizedLinter; rfl

theorem fileOptionsGoPackageNotLongFormLinter_id : (fileOptionsGoPackageNotLongFormLinter).id = s%"FILE_OPTIONS_GO_PACKAGE_NOT_LONG_FORM" := by
  unfold fileOptionsGoPackageNotLongFormLinter; rfl

theorem fileOptionsGoPackageSameInDirLinter_id (env : Env) : (fileOptionsGoPackageSameInDirLinter env).id = s%"FILE_OPTIONS_GO_PACKAGE_SAME_IN_DIR" := by
  unfold fileOptionsGoPackageSameInDirLinter; rfl

theorem fileOptionsJavaMultipleFilesSameInDirLinter_id (env : Env) : (fileOptionsJavaMultipleFilesSameInDirLinter env).id = s%"FILE_OPTIONS_JAVA_MULTIPLE_FILES_SAME_IN_DIR" := by
  unfold fileOptionsJavaMultipleFilesSameInDirLinter; rfl

theorem fileOptionsJavaPackageSameInDirLinter_id (env : Env) : (fileOptionsJavaPackageSameInDirLinter env).id = s%"FILE_OPTIONS_JAVA_PACKAGE_SAME_IN_DIR" := by
  unfold fileOptionsJavaPackageSameInDirLinter; rfl

theorem fileOptionsOBJCClassPrefixSameInDirLinter_id (env : Env) : (fileOptionsOBJCClassPrefixSameInDirLinter env).id = s%"FILE_OPTIONS_OBJC_CLASS_PREFIX_SAME_IN_DIR" := by
  unfold fileOptionsOBJCClassPrefixSameInDirLinter; rfl

theorem fileOptionsPHPNamespaceSameInDirLinter_id (env : Env) : (fileOptionsPHPNamespaceSameInDirLinter env).id = s%"FILE_OPTIONS_PHP_NAMESPACE_SAME_IN_DIR" := by
  unfold fileOptionsPHPNamespaceSameInDirLinter; rfl

theorem fileOptionsRequireCSharpNamespaceLinter_id : (fileOptionsRequireCSharpNamespaceLinter).id = s%"FILE_OPTIONS_REQUIRE_CSHARP_NAMESPACE" := by
  unfold fileOptionsRequireCSharpNamespaceLinter; rfl

theorem fileOptionsRequireGoPackageLinter_id : (fileOptionsRequireGoPackageLinter).id = s%"FILE_OPTIONS_REQUIRE_GO_PACKAGE" := by
  unfold fileOptionsRequireGoPackageLinter; rfl

theorem fileOptionsRequireJavaMultipleFilesLinter_id : (fileOptionsRequireJavaMultipleFilesLinter).id = s%"FILE_OPTIONS_REQUIRE_JAVA_MULTIPLE_FILES" := by
  unfold fileOptionsRequireJavaMultipleFilesLinter; rfl

theorem fileOptionsRequireJavaOuterClassnameLinter_id : (fileOptionsRequireJavaOuterClassnameLinter).id = s%"FILE_OPTIONS_REQUIRE_JAVA_OUTER_CLASSNAME" := by
  unfold fileOptionsRequireJavaOuterClassnameLinter; rfl

theorem fileOptionsRequireJavaPackageLinter_id : (fileOptionsRequireJavaPackageLinter).id = s%"FILE_OPTIONS_REQUIRE_JAVA_PACKAGE" := by
  unfold fileOptionsRequireJavaPackageLinter; rfl

theorem fileOptionsRequireOBJCClassPrefixLinter_id : (fileOptionsRequireOBJCClassPrefixLinter).id = s%"FILE_OPTIONS_REQUIRE_OBJC_CLASS_PREFIX" := by
  unfold fileOptionsRequireOBJCClassPrefixLinter; rfl

theorem fileOptionsRequirePHPNamespaceLinter_id : (fileOptionsRequirePHPNamespaceLinter).id = s%"FILE_OPTIONS_REQUIRE_PHP_NAMESPACE" := by
  unfold fileOptionsRequirePHPNamespaceLinter; rfl

theorem fileOptionsRequireRubyPackageLinter_id : (fileOptionsRequireRubyPackageLinter).id = s%"FILE_OPTIONS_REQUIRE_RUBY_PACKAGE" := by
  unfold fileOptionsRequireRubyPackageLinter; rfl

theorem fileOptionsUnsetJavaMultipleFilesLinter_id : (fileOptionsUnsetJavaMultipleFilesLinter).id = s%"FILE_OPTIONS_UNSET_JAVA_MULTIPLE_FILES" := by
  unfold fileOptionsUnsetJavaMultipleFilesLinter; rfl

theorem fileOptionsUnsetJavaOuterClassnameLinter_id : (fileOptionsUnsetJavaOuterClassnameLinter).id = s%"FILE_OPTIONS_UNSET_JAVA_OUTER_CLASSNAME" := by
  unfold fileOptionsUnsetJavaOuterClassnameLinter; rfl

theorem gogoNotImportedLinter_id : (gogoNotImportedLinter).id = s%"GOGO_NOT_IMPORTED" := by
  unfold gogoNotImportedLinter; rfl

theorem importsNotPublicLinter_id : (importsNotPublicLinter).id = s%"IMPORTS_NOT_PUBLIC" := by
  unfold importsNotPublicLinter; rfl

theorem importsNotWeakLinter_id : (importsNotWeakLinter).id = s%"IMPORTS_NOT_WEAK" := by
  unfold importsNotWeakLinter; rfl

theorem messageFieldsDurationLinter_id : (messageFieldsDurationLinter).id = s%"MESSAGE_FIELDS_DURATION" := by
  unfold messageFieldsDurationLinter; rfl

theorem messageFieldsHaveCommentsLinter_id : (messageFieldsHaveCommentsLinter).id = s%"MESSAGE_FIELDS_HAVE_COMMENTS" := by
  unfold messageFieldsHaveCommentsLinter; rfl

theorem messageFieldsHaveSentenceCommentsLinter_id : (messageFieldsHaveSentenceCommentsLinter).id = s%"MESSAGE_FIELDS_HAVE_SENTENCE_COMMENTS" := by
  unfold messageFieldsHaveSentenceCommentsLinter; rfl

theorem messageFieldsNotFloatsLinter_id : (messageFieldsNotFloatsLinter).id = s%"MESSAGE_FIELDS_NOT_FLOATS" := by
  unfold messageFieldsNotFloatsLinter; rfl

theorem messageFieldsNoJSONNameLinter_id : (messageFieldsNoJSONNameLinter).id = s%"MESSAGE_FIELDS_NO_JSON_NAME" := by
  unfold messageFieldsNoJSONNameLinter; rfl

theorem messageFieldsTimeLinter_id : (messageFieldsTimeLinter).id = s%"MESSAGE_FIELDS_TIME" := by
  unfold messageFieldsTimeLinter; rfl

theorem messageFieldNamesFilenameLinter_id : (messageFieldNamesFilenameLinter).id = s%"MESSAGE_FIELD_NAMES_FILENAME" := by
  unfold messageFieldNamesFilenameLinter; rfl

theorem messageFieldNamesFilepathLinter_id : (messageFieldNamesFilepathLinter).id = s%"MESSAGE_FIELD_NAMES_FILEPATH" := by
  unfold messageFieldNamesFilepathLinter; rfl

theorem messageFieldNamesLowerSnakeCaseLinter_id : (messageFieldNamesLowerSnakeCaseLinter).id = s%"MESSAGE_FIELD_NAMES_LOWER_SNAKE_CASE" := by
  unfold messageFieldNamesLowerSnakeCaseLinter; rfl

theorem messageFieldNamesLowercaseLinter_id : (messageFieldNamesLowercaseLinter).id = s%"MESSAGE_FIELD_NAMES_LOWERCASE" := by
  unfold messageFieldNamesLowercaseLinter; rfl

theorem messageFieldNamesNoDescriptorLinter_id : (messageFieldNamesNoDescriptorLinter).id = s%"MESSAGE_FIELD_NAMES_NO_DESCRIPTOR" := by
  unfold messageFieldNamesNoDescriptorLinter; rfl

theorem messageNamesCamelCaseLinter_id : (messageNamesCamelCaseLinter).id = s%"MESSAGE_NAMES_CAMEL_CASE" := by
  unfold messageNamesCamelCaseLinter; rfl

theorem messageNamesCapitalizedLinter_id : (messageNamesCapitalizedLinter).id = s%"MESSAGE_NAMES_CAPITALIZED" := by
  unfold messageNamesCapitalizedLinter; rfl

theorem messagesHaveCommentsLinter_id : (messagesHaveCommentsLinter).id = s%"MESSAGES_HAVE_COMMENTS" := by
  unfold messagesHaveCommentsLinter; rfl

theorem messagesHaveCommentsExceptRequestResponseTypesLinter_id (env : Env) : (messagesHaveCommentsExceptRequestResponseTypesLinter env).id = s%"MESSAGES_HAVE_COMMENTS_EXCEPT_REQUEST_RESPONSE_TYPES" := by
  unfold messagesHaveCommentsExceptRequestResponseTypesLinter; rfl

theorem messagesHaveSentenceCommentsExceptRequestResponseTypesLinter_id (env : Env) : (messagesHaveSentenceCommentsExceptRequestResponseTypesLinter env).id = s%"MESSAGES_HAVE_SENTENCE_COMMENTS_EXCEPT_REQUEST_RESPONSE_TYPES" := by
  unfold messagesHaveSentenceCommentsExceptRequestResponseTypesLinter; rfl

theorem messagesNotEmptyExceptRequestResponseTypesLinter_id (env : Env) : (messagesNotEmptyExceptRequestResponseTypesLinter env).id = s%"MESSAGES_NOT_EMPTY_EXCEPT_REQUEST_RESPONSE_TYPES" := by
  unfold messagesNotEmptyExceptRequestResponseTypesLinter; rfl

theorem namesNoCommonLinter_id : (namesNoCommonLinter).id = s%"NAMES_NO_COMMON" := by
  unfold namesNoCommonLinter; rfl

theorem namesNoDataLinter_id : (namesNoDataLinter).id = s%"NAMES_NO_DATA" := by
  unfold namesNoDataLinter; rfl

theorem namesNoUUIDLinter_id : (namesNoUUIDLinter).id = s%"NAMES_NO_UUID" := by
  unfold namesNoUUIDLinter; rfl

theorem oneofNamesLowerSnakeCaseLinter_id : (oneofNamesLowerSnakeCaseLinter).id = s%"ONEOF_NAMES_LOWER_SNAKE_CASE" := by
  unfold oneofNamesLowerSnakeCaseLinter; rfl

theorem packageIsDeclaredLinter_id (env : Env) : (packageIsDeclaredLinter env).id = s%"PACKAGE_IS_DECLARED" := by
  unfold packageIsDeclaredLinter; rfl

theorem packageLowerCaseLinter_id (env : Env) : (packageLowerCaseLinter env).id = s%"PACKAGE_LOWER_CASE" := by
  unfold packageLowerCaseLinter; rfl

theorem packageLowerSnakeCaseLinter_id (env : Env) : (packageLowerSnakeCaseLinter env).id = s%"PACKAGE_LOWER_SNAKE_CASE" := by
  unfold packageLowerSnakeCaseLinter; rfl

theorem packageMajorBetaVersionedLinter_id (env : Env) : (packageMajorBetaVersionedLinter env).id = s%"PACKAGE_MAJOR_BETA_VERSIONED" := by
  unfold packageMajorBetaVersionedLinter; rfl

theorem packageNoKeywordsLinter_id : (packageNoKeywordsLinter).id = s%"PACKAGE_NO_KEYWORDS" := by
  unfold packageNoKeywordsLinter; rfl

theorem packagesSameInDirLinter_id (env : Env) : (packagesSameInDirLinter env).id = s%"PACKAGES_SAME_IN_DIR" := by
  unfold packagesSameInDirLinter; rfl

theorem rpcsHaveCommentsLinter_id : (rpcsHaveCommentsLinter).id = s%"RPCS_HAVE_COMMENTS" := by
  unfold rpcsHaveCommentsLinter; rfl

theorem rpcsHaveSentenceCommentsLinter_id : (rpcsHaveSentenceCommentsLinter).id = s%"RPCS_HAVE_SENTENCE_COMMENTS" := by
  unfold rpcsHaveSentenceCommentsLinter; rfl

theorem rpcsNoStreamingLinter_id : (rpcsNoStreamingLinter).id = s%"RPCS_NO_STREAMING" := by
  unfold rpcsNoStreamingLinter; rfl

theorem rpcNamesCamelCaseLinter_id : (rpcNamesCamelCaseLinter).id = s%"RPC_NAMES_CAMEL_CASE" := by
  unfold rpcNamesCamelCaseLinter; rfl

theorem rpcNamesCapitalizedLinter_id : (rpcNamesCapitalizedLinter).id = s%"RPC_NAMES_CAPITALIZED" := by
  unfold rpcNamesCapitalizedLinter; rfl

theorem rpcOptionsNoGoogleAPIHTTPLinter_id : (rpcOptionsNoGoogleAPIHTTPLinter).id = s%"RPC_OPTIONS_NO_GOOGLE_API_HTTP" := by
  unfold rpcOptionsNoGoogleAPIHTTPLinter; rfl

theorem requestResponseTypesAfterServiceLinter_id : (requestResponseTypesAfterServiceLinter).id = s%"REQUEST_RESPONSE_TYPES_AFTER_SERVICE" := by
  unfold requestResponseTypesAfterServiceLinter; rfl

theorem requestResponseTypesInSameFileLinter_id : (requestResponseTypesInSameFileLinter).id = s%"REQUEST_RESPONSE_TYPES_IN_SAME_FILE" := by
  unfold requestResponseTypesInSameFileLinter; rfl

theorem requestResponseTypesOnlyInFileLinter_id (env : Env) : (requestResponseTypesOnlyInFileLinter env).id = s%"REQUEST_RESPONSE_TYPES_ONLY_IN_FILE" := by
  unfold requestResponseTypesOnlyInFileLinter; rfl

theorem requestResponseTypesUniqueLinter_id : (requestResponseTypesUniqueLinter).id = s%"REQUEST_RESPONSE_TYPES_UNIQUE" := by
  unfold requestResponseTypesUniqueLinter; rfl

theorem requestResponseNamesMatchRPCLinter_id : (requestResponseNamesMatchRPCLinter).id = s%"REQUEST_RESPONSE_NAMES_MATCH_RPC" := by
  unfold requestResponseNamesMatchRPCLinter; rfl

theorem servicesHaveCommentsLinter_id : (servicesHaveCommentsLinter).id = s%"SERVICES_HAVE_COMMENTS" := by
  unfold servicesHaveCommentsLinter; rfl

theorem servicesHaveSentenceCommentsLinter_id : (servicesHaveSentenceCommentsLinter).id = s%"SERVICES_HAVE_SENTENCE_COMMENTS" := by
  unfold servicesHaveSentenceCommentsLinter; rfl

theorem serviceNamesAPISuffixLinter_id : (serviceNamesAPISuffixLinter).id = s%"SERVICE_NAMES_API_SUFFIX" := by
  unfold serviceNamesAPISuffixLinter; rfl

theorem serviceNamesCamelCaseLinter_id : (serviceNamesCamelCaseLinter).id = s%"SERVICE_NAMES_CAMEL_CASE" := by
  unfold serviceNamesCamelCaseLinter; rfl

theorem serviceNamesCapitalizedLinter_id : (serviceNamesCapitalizedLinter).id = s%"SERVICE_NAMES_CAPITALIZED" := by
  unfold serviceNamesCapitalizedLinter; rfl

theorem serviceNamesMatchFileNameLinter_id : (serviceNamesMatchFileNameLinter).id = s%"SERVICE_NAMES_MATCH_FILE_NAME" := by
  unfold serviceNamesMatchFileNameLinter; rfl

theorem serviceNamesNoPluralsLinter_id (env : Env) : (serviceNamesNoPluralsLinter env).id = s%"SERVICE_NAMES_NO_PLURALS" := by
  unfold serviceNamesNoPluralsLinter; rfl

theorem syntaxProto3Linter_id (env : Env) : (syntaxProto3Linter env).id = s%"SYNTAX_PROTO3" := by
  unfold syntaxProto3Linter; rfl

theorem wktDirectlyImportedLinter_id (env : Env) : (wktDirectlyImportedLinter env).id = s%"WKT_DIRECTLY_IMPORTED" := by
  unfold wktDirectlyImportedLinter; rfl

theorem wktDurationSuffixLinter_id : (wktDurationSuffixLinter).id = s%"WKT_DURATION_SUFFIX" := by
  unfold wktDurationSuffixLinter; rfl

theorem wktTimestampSuffixLinter_id : (wktTimestampSuffixLinter).id = s%"WKT_TIMESTAMP_SUFFIX" := by
  unfold wktTimestampSuffixLinter; rfl

/-- The names of `allLinters`. -/
def allIDs : List Str :=
  [s%"COMMENTS_NO_C_STYLE",
   s%"COMMENTS_NO_INLINE",
   s%"ENUM_FIELD_NAMES_UPPERCASE",
   s%"ENUM_FIELD_NAMES_UPPER_SNAKE_CASE",
   s%"ENUM_FIELD_PREFIXES",
   s%"ENUM_FIELD_PREFIXES_EXCEPT_MESSAGE",
   s%"ENUM_FIELDS_HAVE_COMMENTS",
   s%"ENUM_FIELDS_HAVE_SENTENCE_COMMENTS",
   s%"ENUM_NAMES_CAMEL_CASE",
   s%"ENUM_NAMES_CAPITALIZED",
   s%"ENUM_ZERO_VALUES_INVALID",
   s%"ENUM_ZERO_VALUES_INVALID_EXCEPT_MESSAGE",
   s%"ENUMS_HAVE_COMMENTS",
   s%"ENUMS_HAVE_SENTENCE_COMMENTS",
   s%"ENUMS_NO_ALLOW_ALIAS",
   s%"FIELDS_NOT_RESERVED",
   s%"FILE_HEADER",
   s%"FILE_NAMES_LOWER_SNAKE_CASE",
   s%"FILE_OPTIONS_CSHARP_NAMESPACE_SAME_IN_DIR",
   s%"FILE_OPTIONS_EQUAL_CSHARP_NAMESPACE_CAPITALIZED",
   s%"FILE_OPTIONS_EQUAL_GO_PACKAGE_V2_SUFFIX",
   s%"FILE_OPTIONS_EQUAL_GO_PACKAGE_PB_SUFFIX",
   s%"FILE_OPTIONS_EQUAL_JAVA_MULTIPLE_FILES_TRUE",
   s%"FILE_OPTIONS_EQUAL_JAVA_OUTER_CLASSNAME_PROTO_SUFFIX",
   s%"FILE_OPTIONS_EQUAL_JAVA_PACKAGE_COM_PREFIX",
   s%"FILE_OPTIONS_EQUAL_JAVA_PACKAGE_PREFIX",
   s%"FILE_OPTIONS_EQUAL_OBJC_CLASS_PREFIX_ABBR",
   s%"FILE_OPTIONS_EQUAL_PHP_NAMESPACE_CAPITALIZED",
   s%"FILE_OPTIONS_GO_PACKAGE_NOT_LONG_FORM",
   s%"FILE_OPTIONS_GO_PACKAGE_SAME_IN_DIR",
   s%"FILE_OPTIONS_JAVA_MULTIPLE_FILES_SAME_IN_DIR",
   s%"FILE_OPTIONS_JAVA_PACKAGE_SAME_IN_DIR",
   s%"FILE_OPTIONS_OBJC_CLASS_PREFIX_SAME_IN_DIR",
   s%"FILE_OPTIONS_PHP_NAMESPACE_SAME_IN_DIR",
   s%"FILE_OPTIONS_REQUIRE_CSHARP_NAMESPACE",
   s%"FILE_OPTIONS_REQUIRE_GO_PACKAGE",
   s%"FILE_OPTIONS_REQUIRE_JAVA_MULTIPLE_FILES",
   s%"FILE_OPTIONS_REQUIRE_JAVA_OUTER_CLASSNAME",
   s%"FILE_OPTIONS_REQUIRE_JAVA_PACKAGE",
   s%"FILE_OPTIONS_REQUIRE_OBJC_CLASS_PREFIX",
   s%"FILE_OPTIONS_REQUIRE_PHP_NAMESPACE",
   s%"FILE_OPTIONS_REQUIRE_RUBY_PACKAGE",
   s%"FILE_OPTIONS_UNSET_JAVA_MULTIPLE_FILES",
   s%"FILE_OPTIONS_UNSET_JAVA_OUTER_CLASSNAME",
   s%"GOGO_NOT_IMPORTED",
   s%"IMPORTS_NOT_PUBLIC",
   s%"IMPORTS_NOT_WEAK",
   s%"MESSAGE_FIELDS_DURATION",
   s%"MESSAGE_FIELDS_HAVE_COMMENTS",
   s%"MESSAGE_FIELDS_HAVE_SENTENCE_COMMENTS",
   s%"MESSAGE_FIELDS_NOT_FLOATS",
   s%"MESSAGE_FIELDS_NO_JSON_NAME",
   s%"MESSAGE_FIELDS_TIME",
   s%"MESSAGE_FIELD_NAMES_FILENAME",
   s%"MESSAGE_FIELD_NAMES_FILEPATH",
   s%"MESSAGE_FIELD_NAMES_LOWER_SNAKE_CASE",
   s%"MESSAGE_FIELD_NAMES_LOWERCASE",
   s%"MESSAGE_FIELD_NAMES_NO_DESCRIPTOR",
   s%"MESSAGE_NAMES_CAMEL_CASE",
   s%"MESSAGE_NAMES_CAPITALIZED",
   s%"MESSAGES_HAVE_COMMENTS",
   s%"MESSAGES_HAVE_COMMENTS_EXCEPT_REQUEST_RESPONSE_TYPES",
   s%"MESSAGES_HAVE_SENTENCE_COMMENTS_EXCEPT_REQUEST_RESPONSE_TYPES",
   s%"MESSAGES_NOT_EMPTY_EXCEPT_REQUEST_RESPONSE_TYPES",
   s%"NAMES_NO_COMMON",
   s%"NAMES_NO_DATA",
   s%"NAMES_NO_UUID",
   s%"ONEOF_NAMES_LOWER_SNAKE_CASE",
   s%"PACKAGE_IS_DECLARED",
   s%"PACKAGE_LOWER_CASE",
   s%"PACKAGE_LOWER_SNAKE_CASE",
   s%"PACKAGE_MAJOR_BETA_VERSIONED",
   s%"PACKAGE_NO_KEYWORDS",
   s%"PACKAGES_SAME_IN_DIR",
   s%"RPCS_HAVE_COMMENTS",
   s%"RPCS_HAVE_SENTENCE_COMMENTS",
   s%"RPCS_NO_STREAMING",
   s%"RPC_NAMES_CAMEL_CASE",
   s%"RPC_NAMES_CAPITALIZED",
   s%"RPC_OPTIONS_NO_GOOGLE_API_HTTP",
   s%"REQUEST_RESPONSE_TYPES_AFTER_SERVICE",
   s%"REQUEST_RESPONSE_TYPES_IN_SAME_FILE",
   s%"REQUEST_RESPONSE_TYPES_ONLY_IN_FILE",
   s%"REQUEST_RESPONSE_TYPES_UNIQUE",
   s%"REQUEST_RESPONSE_NAMES_MATCH_RPC",
   s%"SERVICES_HAVE_COMMENTS",
   s%"SERVICES_HAVE_SENTENCE_COMMENTS",
   s%"SERVICE_NAMES_API_SUFFIX",
   s%"SERVICE_NAMES_CAMEL_CASE",
   s%"SERVICE_NAMES_CAPITALIZED",
   s%"SERVICE_NAMES_MATCH_FILE_NAME",
   s%"SERVICE_NAMES_NO_PLURALS",
   s%"SYNTAX_PROTO3",
   s%"WKT_DIRECTLY_IMPORTED",
   s%"WKT_DURATION_SUFFIX",
   s%"WKT_TIMESTAMP_SUFFIX"]

theorem allLinters_ids (env : Env) : (allLinters env).map (·.id) = allIDs := by
  unfold allLinters allIDs
  simp only [List.map_cons, List.map_nil, commentsNoCStyleLinter_id, commentsNoInlineLinter_id, enumFieldNamesUppercaseLinter_id, enumFieldNamesUpperSnakeCaseLinter_id, enumFieldPrefixesLinter_id, enumFieldPrefixesExceptMessageLinter_id, enumFieldsHaveCommentsLinter_id, enumFieldsHaveSentenceCommentsLinter_id, enumNamesCamelCaseLinter_id, enumNamesCapitalizedLinter_id, enumZeroValuesInvalidLinter_id, enumZeroValuesInvalidExceptMessageLinter_id, enumsHaveCommentsLinter_id, enumsHaveSentenceCommentsLinter_id, enumsNoAllowAliasLinter_id, fieldsNotReservedLinter_id, fileHeaderLinter_id, fileNamesLowerSnakeCaseLinter_id, fileOptionsCSharpNamespaceSameInDirLinter_id, fileOptionsEqualCSharpNamespaceCapitalizedLinter_id, fileOptionsEqualGoPackageV2SuffixLinter_id, fileOptionsEqualGoPackagePbSuffixLinter_id, fileOptionsEqualJavaMultipleFilesTrueLinter_id, fileOptionsEqualJavaOuterClassnameProtoSuffixLinter_id, fileOptionsEqualJavaPackageComPrefixLinter_id, fileOptionsEqualJavaPackagePrefixLinter_id, fileOptionsEqualOBJCClassPrefixAbbrLinter_id, fileOptionsEqualPHPNamespaceCapitalizedLinter_id, fileOptionsGoPackageNotLongFormLinter_id, fileOptionsGoPackageSameInDirLinter_id, fileOptionsJavaMultipleFilesSameInDirLinter_id, fileOptionsJavaPackageSameInDirLinter_id, fileOptionsOBJCClassPrefixSameInDirLinter_id, fileOptionsPHPNamespaceSameInDirLinter_id, fileOptionsRequireCSharpNamespaceLinter_id, fileOptionsRequireGoPackageLinter_id, fileOptionsRequireJavaMultipleFilesLinter_id, fileOptionsRequireJavaOuterClassnameLinter_id, fileOptionsRequireJavaPackageLinter_id, fileOptionsRequireOBJCClassPrefixLinter_id, fileOptionsRequirePHPNamespaceLinter_id, fileOptionsRequireRubyPackageLinter_id, fileOptionsUnsetJavaMultipleFilesLinter_id, fileOptionsUnsetJavaOuterClassnameLinter_id, gogoNotImportedLinter_id, importsNotPublicLinter_id, importsNotWeakLinter_id, messageFieldsDurationLinter_id, messageFieldsHaveCommentsLinter_id, messageFieldsHaveSentenceCommentsLinter_id, messageFieldsNotFloatsLinter_id, messageFieldsNoJSONNameLinter_id, messageFieldsTimeLinter_id, messageFieldNamesFilenameLinter_id, messageFieldNamesFilepathLinter_id, messageFieldNamesLowerSnakeCaseLinter_id, messageFieldNamesLowercaseLinter_id, messageFieldNamesNoDescriptorLinter_id, messageNamesCamelCaseLinter_id, messageNamesCapitalizedLinter_id, messagesHaveCommentsLinter_id, messagesHaveCommentsExceptRequestResponseTypesLinter_id, messagesHaveSentenceCommentsExceptRequestResponseTypesLinter_id, messagesNotEmptyExceptRequestResponseTypesLinter_id, namesNoCommonLinter_id, namesNoDataLinter_id, namesNoUUIDLinter_id, oneofNamesLowerSnakeCaseLinter_id, packageIsDeclaredLinter_id, packageLowerCaseLinter_id, packageLowerSnakeCaseLinter_id, packageMajorBetaVersionedLinter_id, packageNoKeywordsLinter_id, packagesSameInDirLinter_id, rpcsHaveCommentsLinter_id, rpcsHaveSentenceCommentsLinter_id, rpcsNoStreamingLinter_id, rpcNamesCamelCaseLinter_id, rpcNamesCapitalizedLinter_id, rpcOptionsNoGoogleAPIHTTPLinter_id, requestResponseTypesAfterServiceLinter_id, requestResponseTypesInSameFileLinter_id, requestResponseTypesOnlyInFileLinter_id, requestResponseTypesUniqueLinter_id, requestResponseNamesMatchRPCLinter_id, servicesHaveCommentsLinter_id, servicesHaveSentenceCommentsLinter_id, serviceNamesAPISuffixLinter_id, serviceNamesCamelCaseLinter_id, serviceNamesCapitalizedLinter_id, serviceNamesMatchFileNameLinter_id, serviceNamesNoPluralsLinter_id, syntaxProto3Linter_id, wktDirectlyImportedLinter_id, wktDurationSuffixLinter_id, wktTimestampSuffixLinter_id]

/-- The names of `googleLinters`. -/
def googleIDs : List Str :=
  [s%"ENUM_FIELD_NAMES_UPPER_SNAKE_CASE",
   s%"ENUM_NAMES_CAMEL_CASE",
   s%"ENUM_NAMES_CAPITALIZED",
   s%"FILE_HEADER",
   s%"MESSAGE_FIELD_NAMES_LOWER_SNAKE_CASE",
   s%"MESSAGE_NAMES_CAMEL_CASE",
   s%"MESSAGE_NAMES_CAPITALIZED",
   s%"RPC_NAMES_CAMEL_CASE",
   s%"RPC_NAMES_CAPITALIZED",
   s%"SERVICE_NAMES_CAMEL_CASE",
   s%"SERVICE_NAMES_CAPITALIZED"]

theorem googleLinters_ids (env : Env) : (googleLinters env).map (·.id) = googleIDs := by
  unfold googleLinters googleIDs
  simp only [List.map_cons, List.map_nil, enumFieldNamesUpperSnakeCaseLinter_id, enumNamesCamelCaseLinter_id, enumNamesCapitalizedLinter_id, fileHeaderLinter_id, messageFieldNamesLowerSnakeCaseLinter_id, messageNamesCamelCaseLinter_id, messageNamesCapitalizedLinter_id, rpcNamesCamelCaseLinter_id, rpcNamesCapitalizedLinter_id, serviceNamesCamelCaseLinter_id, serviceNamesCapitalizedLinter_id]

theorem googleLinters_all (env : Env) : googleLinters env = [3, 8, 9, 16, 55, 58, 59, 77, 78, 88, 89].filterMap ((allLinters env)[·]?) := rfl

/-- The names of `uber1Linters`. -/
def uber1IDs : List Str :=
  [s%"COMMENTS_NO_C_STYLE",
   s%"ENUM_FIELD_NAMES_UPPER_SNAKE_CASE",
   s%"ENUM_FIELD_PREFIXES",
   s%"ENUM_NAMES_CAMEL_CASE",
   s%"ENUM_NAMES_CAPITALIZED",
   s%"ENUM_ZERO_VALUES_INVALID",
   s%"ENUMS_NO_ALLOW_ALIAS",
   s%"FILE_HEADER",
   s%"FILE_OPTIONS_EQUAL_GO_PACKAGE_PB_SUFFIX",
   s%"FILE_OPTIONS_EQUAL_JAVA_MULTIPLE_FILES_TRUE",
   s%"FILE_OPTIONS_EQUAL_JAVA_OUTER_CLASSNAME_PROTO_SUFFIX",
   s%"FILE_OPTIONS_EQUAL_JAVA_PACKAGE_COM_PREFIX",
   s%"FILE_OPTIONS_GO_PACKAGE_NOT_LONG_FORM",
   s%"FILE_OPTIONS_GO_PACKAGE_SAME_IN_DIR",
   s%"FILE_OPTIONS_JAVA_MULTIPLE_FILES_SAME_IN_DIR",
   s%"FILE_OPTIONS_JAVA_PACKAGE_SAME_IN_DIR",
   s%"FILE_OPTIONS_REQUIRE_GO_PACKAGE",
   s%"FILE_OPTIONS_REQUIRE_JAVA_MULTIPLE_FILES",
   s%"FILE_OPTIONS_REQUIRE_JAVA_OUTER_CLASSNAME",
   s%"FILE_OPTIONS_REQUIRE_JAVA_PACKAGE",
   s%"MESSAGE_FIELD_NAMES_LOWER_SNAKE_CASE",
   s%"MESSAGE_NAMES_CAMEL_CASE",
   s%"MESSAGE_NAMES_CAPITALIZED",
   s%"ONEOF_NAMES_LOWER_SNAKE_CASE",
   s%"PACKAGE_IS_DECLARED",
   s%"PACKAGE_LOWER_SNAKE_CASE",
   s%"PACKAGES_SAME_IN_DIR",
   s%"RPC_NAMES_CAMEL_CASE",
   s%"RPC_NAMES_CAPITALIZED",
   s%"REQUEST_RESPONSE_TYPES_IN_SAME_FILE",
   s%"REQUEST_RESPONSE_TYPES_UNIQUE",
   s%"SERVICE_NAMES_CAMEL_CASE",
   s%"SERVICE_NAMES_CAPITALIZED",
   s%"SYNTAX_PROTO3",
   s%"WKT_DIRECTLY_IMPORTED"]

theorem uber1Linters_ids (env : Env) : (uber1Linters env).map (·.id) = uber1IDs := by
  unfold uber1Linters uber1IDs
  simp only [List.map_cons, List.map_nil, commentsNoCStyleLinter_id, enumFieldNamesUpperSnakeCaseLinter_id, enumFieldPrefixesLinter_id, enumNamesCamelCaseLinter_id, enumNamesCapitalizedLinter_id, enumZeroValuesInvalidLinter_id, enumsNoAllowAliasLinter_id, fileHeaderLinter_id, fileOptionsEqualGoPackagePbSuffixLinter_id, fileOptionsEqualJavaMultipleFilesTrueLinter_id, fileOptionsEqualJavaOuterClassnameProtoSuffixLinter_id, fileOptionsEqualJavaPackageComPrefixLinter_id, fileOptionsGoPackageNotLongFormLinter_id, fileOptionsGoPackageSameInDirLinter_id, fileOptionsJavaMultipleFilesSameInDirLinter_id, fileOptionsJavaPackageSameInDirLinter_id, fileOptionsRequireGoPackageLinter_id, fileOptionsRequireJavaMultipleFilesLinter_id, fileOptionsRequireJavaOuterClassnameLinter_id, fileOptionsRequireJavaPackageLinter_id, messageFieldNamesLowerSnakeCaseLinter_id, messageNamesCamelCaseLinter_id, messageNamesCapitalizedLinter_id, oneofNamesLowerSnakeCaseLinter_id, packageIsDeclaredLinter_id, packageLowerSnakeCaseLinter_id, packagesSameInDirLinter_id, rpcNamesCamelCaseLinter_id, rpcNamesCapitalizedLinter_id, requestResponseTypesInSameFileLinter_id, requestResponseTypesUniqueLinter_id, serviceNamesCamelCaseLinter_id, serviceNamesCapitalizedLinter_id, syntaxProto3Linter_id, wktDirectlyImportedLinter_id]

theorem uber1Linters_all (env : Env) : uber1Linters env = [0, 3, 4, 8, 9, 10, 14, 16, 21, 22, 23, 24, 28, 29, 30, 31, 35, 36, 37, 38, 55, 58, 59, 67, 68, 70, 73, 77, 78, 81, 83, 88, 89, 92, 93].filterMap ((allLinters env)[·]?) := rfl

/-- The names of `uber2Linters`. -/
def uber2IDs : List Str :=
  [s%"COMMENTS_NO_C_STYLE",
   s%"COMMENTS_NO_INLINE",
   s%"ENUM_FIELD_NAMES_UPPER_SNAKE_CASE",
   s%"ENUM_FIELD_PREFIXES_EXCEPT_MESSAGE",
   s%"ENUM_NAMES_CAMEL_CASE",
   s%"ENUM_NAMES_CAPITALIZED",
   s%"ENUM_ZERO_VALUES_INVALID_EXCEPT_MESSAGE",
   s%"ENUMS_HAVE_SENTENCE_COMMENTS",
   s%"ENUMS_NO_ALLOW_ALIAS",
   s%"FIELDS_NOT_RESERVED",
   s%"FILE_HEADER",
   s%"FILE_NAMES_LOWER_SNAKE_CASE",
   s%"FILE_OPTIONS_CSHARP_NAMESPACE_SAME_IN_DIR",
   s%"FILE_OPTIONS_EQUAL_CSHARP_NAMESPACE_CAPITALIZED",
   s%"FILE_OPTIONS_EQUAL_GO_PACKAGE_V2_SUFFIX",
   s%"FILE_OPTIONS_EQUAL_JAVA_MULTIPLE_FILES_TRUE",
   s%"FILE_OPTIONS_EQUAL_JAVA_OUTER_CLASSNAME_PROTO_SUFFIX",
   s%"FILE_OPTIONS_EQUAL_JAVA_PACKAGE_PREFIX",
   s%"FILE_OPTIONS_EQUAL_OBJC_CLASS_PREFIX_ABBR",
   s%"FILE_OPTIONS_EQUAL_PHP_NAMESPACE_CAPITALIZED",
   s%"FILE_OPTIONS_GO_PACKAGE_NOT_LONG_FORM",
   s%"FILE_OPTIONS_GO_PACKAGE_SAME_IN_DIR",
   s%"FILE_OPTIONS_JAVA_MULTIPLE_FILES_SAME_IN_DIR",
   s%"FILE_OPTIONS_JAVA_PACKAGE_SAME_IN_DIR",
   s%"FILE_OPTIONS_OBJC_CLASS_PREFIX_SAME_IN_DIR",
   s%"FILE_OPTIONS_PHP_NAMESPACE_SAME_IN_DIR",
   s%"FILE_OPTIONS_REQUIRE_CSHARP_NAMESPACE",
   s%"FILE_OPTIONS_REQUIRE_GO_PACKAGE",
   s%"FILE_OPTIONS_REQUIRE_JAVA_MULTIPLE_FILES",
   s%"FILE_OPTIONS_REQUIRE_JAVA_OUTER_CLASSNAME",
   s%"FILE_OPTIONS_REQUIRE_JAVA_PACKAGE",
   s%"FILE_OPTIONS_REQUIRE_OBJC_CLASS_PREFIX",
   s%"FILE_OPTIONS_REQUIRE_PHP_NAMESPACE",
   s%"IMPORTS_NOT_PUBLIC",
   s%"IMPORTS_NOT_WEAK",
   s%"MESSAGES_HAVE_SENTENCE_COMMENTS_EXCEPT_REQUEST_RESPONSE_TYPES",
   s%"MESSAGE_FIELD_NAMES_FILENAME",
   s%"MESSAGE_FIELD_NAMES_FILEPATH",
   s%"MESSAGE_FIELD_NAMES_LOWER_SNAKE_CASE",
   s%"MESSAGE_FIELD_NAMES_NO_DESCRIPTOR",
   s%"MESSAGE_FIELDS_NO_JSON_NAME",
   s%"MESSAGE_NAMES_CAMEL_CASE",
   s%"MESSAGE_NAMES_CAPITALIZED",
   s%"NAMES_NO_COMMON",
   s%"NAMES_NO_DATA",
   s%"NAMES_NO_UUID",
   s%"ONEOF_NAMES_LOWER_SNAKE_CASE",
   s%"PACKAGE_IS_DECLARED",
   s%"PACKAGE_LOWER_CASE",
   s%"PACKAGE_MAJOR_BETA_VERSIONED",
   s%"PACKAGE_NO_KEYWORDS",
   s%"PACKAGES_SAME_IN_DIR",
   s%"RPCS_HAVE_SENTENCE_COMMENTS",
   s%"RPC_NAMES_CAMEL_CASE",
   s%"RPC_NAMES_CAPITALIZED",
   s%"REQUEST_RESPONSE_NAMES_MATCH_RPC",
   s%"REQUEST_RESPONSE_TYPES_AFTER_SERVICE",
   s%"REQUEST_RESPONSE_TYPES_IN_SAME_FILE",
   s%"REQUEST_RESPONSE_TYPES_ONLY_IN_FILE",
   s%"REQUEST_RESPONSE_TYPES_UNIQUE",
   s%"SERVICES_HAVE_SENTENCE_COMMENTS",
   s%"SERVICE_NAMES_API_SUFFIX",
   s%"SERVICE_NAMES_CAMEL_CASE",
   s%"SERVICE_NAMES_CAPITALIZED",
   s%"SERVICE_NAMES_MATCH_FILE_NAME",
   s%"SYNTAX_PROTO3",
   s%"WKT_DIRECTLY_IMPORTED",
   s%"WKT_DURATION_SUFFIX",
   s%"WKT_TIMESTAMP_SUFFIX"]

theorem uber2Linters_ids (env : Env) : (uber2Linters env).map (·.id) = uber2IDs := by
  unfold uber2Linters uber2IDs
  simp only [List.map_cons, List.map_nil, commentsNoCStyleLinter_id, commentsNoInlineLinter_id, enumFieldNamesUpperSnakeCaseLinter_id, enumFieldPrefixesExceptMessageLinter_id, enumNamesCamelCaseLinter_id, enumNamesCapitalizedLinter_id, enumZeroValuesInvalidExceptMessageLinter_id, enumsHaveSentenceCommentsLinter_id, enumsNoAllowAliasLinter_id, fieldsNotReservedLinter_id, fileHeaderLinter_id, fileNamesLowerSnakeCaseLinter_id, fileOptionsCSharpNamespaceSameInDirLinter_id, fileOptionsEqualCSharpNamespaceCapitalizedLinter_id, fileOptionsEqualGoPackageV2SuffixLinter_id, fileOptionsEqualJavaMultipleFilesTrueLinter_id, fileOptionsEqualJavaOuterClassnameProtoSuffixLinter_id, fileOptionsEqualJavaPackagePrefixLinter_id, fileOptionsEqualOBJCClassPrefixAbbrLinter_id, fileOptionsEqualPHPNamespaceCapitalizedLinter_id, fileOptionsGoPackageNotLongFormLinter_id, fileOptionsGoPackageSameInDirLinter_id, fileOptionsJavaMultipleFilesSameInDirLinter_id, fileOptionsJavaPackageSameInDirLinter_id, fileOptionsOBJCClassPrefixSameInDirLinter_id, fileOptionsPHPNamespaceSameInDirLinter_id, fileOptionsRequireCSharpNamespaceLinter_id, fileOptionsRequireGoPackageLinter_id, fileOptionsRequireJavaMultipleFilesLinter_id, fileOptionsRequireJavaOuterClassnameLinter_id, fileOptionsRequireJavaPackageLinter_id, fileOptionsRequireOBJCClassPrefixLinter_id, fileOptionsRequirePHPNamespaceLinter_id, importsNotPublicLinter_id, importsNotWeakLinter_id, messagesHaveSentenceCommentsExceptRequestResponseTypesLinter_id, messageFieldNamesFilenameLinter_id, messageFieldNamesFilepathLinter_id, messageFieldNamesLowerSnakeCaseLinter_id, messageFieldNamesNoDescriptorLinter_id, messageFieldsNoJSONNameLinter_id, messageNamesCamelCaseLinter_id, messageNamesCapitalizedLinter_id, namesNoCommonLinter_id, namesNoDataLinter_id, namesNoUUIDLinter_id, oneofNamesLowerSnakeCaseLinter_id, packageIsDeclaredLinter_id, packageLowerCaseLinter_id, packageMajorBetaVersionedLinter_id, packageNoKeywordsLinter_id, packagesSameInDirLinter_id, rpcsHaveSentenceCommentsLinter_id, rpcNamesCamelCaseLinter_id, rpcNamesCapitalizedLinter_id, requestResponseNamesMatchRPCLinter_id, requestResponseTypesAfterServiceLinter_id, requestResponseTypesInSameFileLinter_id, requestResponseTypesOnlyInFileLinter_id, requestResponseTypesUniqueLinter_id, servicesHaveSentenceCommentsLinter_id, serviceNamesAPISuffixLinter_id, serviceNamesCamelCaseLinter_id, serviceNamesCapitalizedLinter_id, serviceNamesMatchFileNameLinter_id, syntaxProto3Linter_id, wktDirectlyImportedLinter_id, wktDurationSuffixLinter_id, wktTimestampSuffixLinter_id]

theorem uber2Linters_all (env : Env) : uber2Linters env = [0, 1, 3, 5, 8, 9, 11, 13, 14, 15, 16, 17, 18, 19, 20, 22, 23, 25, 26, 27, 28, 29, 30, 31, 32, 33, 34, 35, 36, 37, 38, 39, 40, 45, 46, 62, 53, 54, 55, 57, 51, 58, 59, 64, 65, 66, 67, 68, 69, 71, 72, 73, 75, 77, 78, 84, 80, 81, 82, 83, 86, 87, 88, 89, 90, 92, 93, 94, 95].filterMap ((allLinters env)[·]?) := rfl

end Verif.Lint
