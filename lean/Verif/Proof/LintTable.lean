import Verif.Proof.Lands
import Verif.Proof.PerFile
import Verif.Props.LintComments
import Verif.Props.LintDir
import Verif.Props.LintEnums
import Verif.Props.LintFields
import Verif.Props.LintNames
import Verif.Props.LintOptions
import Verif.Props.LintOther
import Verif.Props.LintPackage
import Verif.Props.LintSuppress
import Verif.Props.LintTypes

/-! # All rules one by one -/

namespace Verif.Lint

open Verif Proto Spec Props

theorem sub_tail {α : Type} {xs : List α} {P : α → Prop} (h : ∀ x ∈ xs, P x) : ∀ x ∈ xs.tail, P x :=
  fun x hx => h x (List.mem_of_mem_tail hx)

theorem sub_head {α : Type} {xs : List α} {P : α → Prop} (h : ∀ x ∈ xs, P x) :
    ∀ x ∈ xs.head?.toList, P x := by
  intro x hx
  cases xs with
  | nil => cases hx
  | cons a as => rw [List.head?_cons, Option.toList_some, List.mem_singleton] at hx
                 rw [hx]; exact h a List.mem_cons_self

theorem sub_last {α : Type} {xs : List α} {P : α → Prop} (h : ∀ x ∈ xs, P x) :
    ∀ x ∈ xs.getLast?.toList, P x := by
  intro x hx
  cases hl : xs.getLast? with
  | none => rw [hl] at hx; cases hx
  | some a =>
    rw [hl, Option.toList_some, List.mem_singleton] at hx
    rw [hx]; exact h a (List.mem_of_getLast? hl)

theorem sub_filter {α : Type} {xs : List α} {P : α → Prop} {p : α → Bool} (h : ∀ x ∈ xs, P x) :
    ∀ x ∈ xs.filter p, P x := fun x hx => h x (List.mem_filter.1 hx).1

/-- All places are made of the positions of things in the file. -/
macro "in_file" : tactic => `(tactic| (
  intro d hd
  repeat' first
    | exact placed_messages hd
    | exact placed_enums hd
    | exact placed_enumValues hd
    | exact placed_namedValues hd
    | exact placed_valuesOfEnums hd
    | exact placed_enumOptions hd
    | exact placed_reservedDecls hd
    | exact placed_fields hd
    | exact placed_nonMapFields hd
    | exact placed_oneofs hd
    | exact placed_services hd
    | exact placed_rpcs hd
    | exact placed_imports hd
    | exact placed_packages hd
    | exact placed_syntaxes hd
    | exact placed_fileOptions hd
    | exact placed_topMessages hd
    | exact placed_topEnums hd
    | exact placed_named hd
    | exact within_nil
    | exact within_one rfl
    | exact fun r _ => placed_after hd r
    | refine placed_last ?_
    | refine within_append ?_ ?_
    | refine within_ite ?_ ?_
    | refine within_filter ?_
    | refine within_map ?_
    | refine within_flatMap ?_
    | refine sub_tail ?_
    | refine sub_head ?_
    | refine sub_last ?_
    | refine sub_filter ?_))

/-- A rule for single files. -/
structure FileRule (ok : FileDescriptor → Prop) (l : Linter) : Prop where
  single : l.id ∉ directoryRules
  perFile : PerFile l
  lands : Lands ok l

/-- A rule for the files of a directory. -/
structure DirRule (l : Linter) : Prop where
  directory : l.id ∈ directoryRules
  reports : ∃ (many : FileDescriptor → List Position) (value : FileDescriptor → Option Str),
    (ReportsDir l fun ds => ds.flatMap many ++
      if ¬ Agree value ds then ds.map fun d => { filename := d.filename } else []) ∧
    ∀ d, Parsed d → ∀ p ∈ many d, p.filename = d.filename

theorem fileRule {S : Type} {good ok : FileDescriptor → Prop} {l : Linter} {v : Visitor S} {s0 : S}
    {places : FileDescriptor → List Position} (hr : ReportsOn good l places)
    (hg : ∀ d, ok d → good d) (hp : ∀ d, ok d → ∀ p ∈ places d, p.filename = d.filename)
    (hid : l.id ∉ directoryRules) (hl : l.addCheck = visitWith v s0)
    (h : ∀ d s, v.onStart d s = v.onStart d s0) : FileRule ok l :=
  ⟨hid, perFile_fresh hl h, .on hr hg hp⟩

theorem parsed_named {d : FileDescriptor} (hd : Parsed d) : d.filename ≠ [] := by
  intro h
  have := hd.proto
  rw [h, List.suffix_nil] at this
  cases this

theorem rule_commentsNoCStyle : FileRule Parsed commentsNoCStyleLinter :=
  fileRule C55_comments_no_c_style (fun _ _ => trivial) (by
    intro d hd
    refine within_flatMap fun n hn => ?_
    intro p hp
    obtain ⟨c, hc, rfl⟩ := List.mem_map.1 hp
    exact (hd.placed n hn).1)
    (by show s%"COMMENTS_NO_C_STYLE" ∉ directoryRules; decide) rfl (fun _ _ => rfl)

theorem rule_commentsNoInline : FileRule Parsed commentsNoInlineLinter :=
  fileRule C55_comments_no_inline (fun _ _ => trivial) (by
    intro d hd
    refine within_flatMap fun n hn => ?_
    intro p hp
    obtain ⟨c, hc, rfl⟩ := List.mem_map.1 hp
    exact (hd.placed n hn).2 c (Option.mem_toList.1 hc))
    (by show s%"COMMENTS_NO_INLINE" ∉ directoryRules; decide) rfl (fun _ _ => rfl)

theorem rule_enumFieldNamesUppercase : FileRule Parsed enumFieldNamesUppercaseLinter :=
  fileRule C29_enum_field_names_uppercase (fun _ _ => trivial) (by in_file)
    (by show s%"ENUM_FIELD_NAMES_UPPERCASE" ∉ directoryRules; decide) rfl (fun _ _ => rfl)

theorem rule_enumFieldNamesUpperSnakeCase : FileRule Parsed enumFieldNamesUpperSnakeCaseLinter :=
  fileRule C29_enum_field_names_upper_snake_case (fun _ _ => trivial) (by in_file)
    (by show s%"ENUM_FIELD_NAMES_UPPER_SNAKE_CASE" ∉ directoryRules; decide) rfl (fun _ _ => rfl)

theorem rule_enumFieldPrefixes : FileRule Parsed enumFieldPrefixesLinter :=
  ⟨by decide, perFile_enumFieldPrefixes, .on C30_enum_field_prefixes (fun _ _ => trivial) (by in_file)⟩

theorem rule_enumFieldPrefixesExceptMessage : FileRule Parsed enumFieldPrefixesExceptMessageLinter :=
  fileRule C30_enum_field_prefixes_except_message (fun _ h => h.grammar) (by in_file)
    (by show s%"ENUM_FIELD_PREFIXES_EXCEPT_MESSAGE" ∉ directoryRules; decide) rfl (fun _ _ => rfl)

theorem rule_enumFieldsHaveComments : FileRule Parsed enumFieldsHaveCommentsLinter :=
  fileRule C55_enum_fields_have_comments (fun _ _ => trivial) (by in_file)
    (by show s%"ENUM_FIELDS_HAVE_COMMENTS" ∉ directoryRules; decide) rfl (fun _ _ => rfl)

theorem rule_enumFieldsHaveSentenceComments : FileRule Parsed enumFieldsHaveSentenceCommentsLinter :=
  fileRule C55_enum_fields_have_sentence_comments (fun _ _ => trivial) (by in_file)
    (by show s%"ENUM_FIELDS_HAVE_SENTENCE_COMMENTS" ∉ directoryRules; decide) rfl (fun _ _ => rfl)

theorem rule_enumNamesCamelCase : FileRule Parsed enumNamesCamelCaseLinter :=
  fileRule C29_enum_names_camel_case (fun _ _ => trivial) (by in_file)
    (by show s%"ENUM_NAMES_CAMEL_CASE" ∉ directoryRules; decide) rfl (fun _ _ => rfl)

theorem rule_enumNamesCapitalized : FileRule Parsed enumNamesCapitalizedLinter :=
  fileRule C29_enum_names_capitalized (fun _ _ => trivial) (by in_file)
    (by show s%"ENUM_NAMES_CAPITALIZED" ∉ directoryRules; decide) rfl (fun _ _ => rfl)

theorem rule_enumZeroValuesInvalid : FileRule Parsed enumZeroValuesInvalidLinter :=
  ⟨by decide, perFile_enumZeroValuesInvalid, .on C30_enum_zero_values_invalid (fun _ _ => trivial) (by in_file)⟩

theorem rule_enumZeroValuesInvalidExceptMessage : FileRule Parsed enumZeroValuesInvalidExceptMessageLinter :=
  fileRule C30_enum_zero_values_invalid_except_message (fun _ h => h.grammar) (by in_file)
    (by show s%"ENUM_ZERO_VALUES_INVALID_EXCEPT_MESSAGE" ∉ directoryRules; decide) rfl (fun _ _ => rfl)

theorem rule_enumsHaveComments : FileRule Parsed enumsHaveCommentsLinter :=
  fileRule C55_enums_have_comments (fun _ _ => trivial) (by in_file)
    (by show s%"ENUMS_HAVE_COMMENTS" ∉ directoryRules; decide) rfl (fun _ _ => rfl)

theorem rule_enumsHaveSentenceComments : FileRule Parsed enumsHaveSentenceCommentsLinter :=
  fileRule C55_enums_have_sentence_comments (fun _ _ => trivial) (by in_file)
    (by show s%"ENUMS_HAVE_SENTENCE_COMMENTS" ∉ directoryRules; decide) rfl (fun _ _ => rfl)

theorem rule_enumsNoAllowAlias : FileRule Parsed enumsNoAllowAliasLinter :=
  fileRule C57_enums_no_allow_alias (fun _ _ => trivial) (by in_file)
    (by show s%"ENUMS_NO_ALLOW_ALIAS" ∉ directoryRules; decide) rfl (fun _ _ => rfl)

theorem rule_fieldsNotReserved : FileRule Parsed fieldsNotReservedLinter :=
  ⟨by decide, perFile_fieldsNotReserved, .on C57_fields_not_reserved (fun _ _ => trivial) (by in_file)⟩

theorem rule_fileHeader : FileRule Parsed fileHeaderLinter :=
  fileRule C57_file_header (fun _ _ => trivial) (by in_file)
    (by show s%"FILE_HEADER" ∉ directoryRules; decide) rfl (fun _ _ => rfl)

theorem rule_fileNamesLowerSnakeCase : FileRule Parsed fileNamesLowerSnakeCaseLinter :=
  fileRule C29_file_names_lower_snake_case (fun _ h => h.proto) (by in_file)
    (by show s%"FILE_NAMES_LOWER_SNAKE_CASE" ∉ directoryRules; decide) rfl (fun _ _ => rfl)

theorem rule_fileOptionsGoPackageNotLongForm : FileRule Parsed fileOptionsGoPackageNotLongFormLinter :=
  fileRule C58_go_package_not_long_form (fun _ _ => trivial) (by in_file)
    (by show s%"FILE_OPTIONS_GO_PACKAGE_NOT_LONG_FORM" ∉ directoryRules; decide) rfl (fun _ _ => rfl)

theorem rule_gogoNotImported : FileRule Parsed gogoNotImportedLinter :=
  fileRule C57_gogo_not_imported (fun _ _ => trivial) (by in_file)
    (by show s%"GOGO_NOT_IMPORTED" ∉ directoryRules; decide) rfl (fun _ _ => rfl)

theorem rule_importsNotPublic : FileRule Parsed importsNotPublicLinter :=
  fileRule C57_imports_not_public (fun _ _ => trivial) (by in_file)
    (by show s%"IMPORTS_NOT_PUBLIC" ∉ directoryRules; decide) rfl (fun _ _ => rfl)

theorem rule_importsNotWeak : FileRule Parsed importsNotWeakLinter :=
  fileRule C57_imports_not_weak (fun _ _ => trivial) (by in_file)
    (by show s%"IMPORTS_NOT_WEAK" ∉ directoryRules; decide) rfl (fun _ _ => rfl)

theorem rule_messageFieldsDuration : FileRule Parsed messageFieldsDurationLinter :=
  fileRule C56_message_fields_duration (fun _ _ => trivial) (by in_file)
    (by show s%"MESSAGE_FIELDS_DURATION" ∉ directoryRules; decide) rfl (fun _ _ => rfl)

theorem rule_messageFieldsHaveComments : FileRule Parsed messageFieldsHaveCommentsLinter :=
  fileRule C55_message_fields_have_comments (fun _ _ => trivial) (by in_file)
    (by show s%"MESSAGE_FIELDS_HAVE_COMMENTS" ∉ directoryRules; decide) rfl (fun _ _ => rfl)

theorem rule_messageFieldsHaveSentenceComments : FileRule Parsed messageFieldsHaveSentenceCommentsLinter :=
  fileRule C55_message_fields_have_sentence_comments (fun _ _ => trivial) (by in_file)
    (by show s%"MESSAGE_FIELDS_HAVE_SENTENCE_COMMENTS" ∉ directoryRules; decide) rfl (fun _ _ => rfl)

theorem rule_messageFieldsNotFloats : FileRule Parsed messageFieldsNotFloatsLinter :=
  fileRule C28_message_fields_not_floats (fun _ _ => trivial) (by in_file)
    (by show s%"MESSAGE_FIELDS_NOT_FLOATS" ∉ directoryRules; decide) rfl (fun _ _ => rfl)

theorem rule_messageFieldsNoJSONName : FileRule Parsed messageFieldsNoJSONNameLinter :=
  fileRule C56_message_fields_no_json_name (fun _ _ => trivial) (by
    intro d hd
    refine within_flatMap fun n hn => within_filter fun _ _ => ?_
    exact placed_fields hd n hn)
    (by show s%"MESSAGE_FIELDS_NO_JSON_NAME" ∉ directoryRules; decide) rfl (fun _ _ => rfl)

theorem rule_messageFieldsTime : FileRule Parsed messageFieldsTimeLinter :=
  fileRule C56_message_fields_time (fun _ _ => trivial) (by in_file)
    (by show s%"MESSAGE_FIELDS_TIME" ∉ directoryRules; decide) rfl (fun _ _ => rfl)

theorem rule_messageFieldNamesFilename : FileRule Parsed messageFieldNamesFilenameLinter :=
  fileRule C56_message_field_names_filename (fun _ _ => trivial) (by in_file)
    (by show s%"MESSAGE_FIELD_NAMES_FILENAME" ∉ directoryRules; decide) rfl (fun _ _ => rfl)

theorem rule_messageFieldNamesFilepath : FileRule Parsed messageFieldNamesFilepathLinter :=
  fileRule C56_message_field_names_filepath (fun _ _ => trivial) (by in_file)
    (by show s%"MESSAGE_FIELD_NAMES_FILEPATH" ∉ directoryRules; decide) rfl (fun _ _ => rfl)

theorem rule_messageFieldNamesLowerSnakeCase : FileRule Parsed messageFieldNamesLowerSnakeCaseLinter :=
  fileRule C29_message_field_names_lower_snake_case (fun _ _ => trivial) (by in_file)
    (by show s%"MESSAGE_FIELD_NAMES_LOWER_SNAKE_CASE" ∉ directoryRules; decide) rfl (fun _ _ => rfl)

theorem rule_messageFieldNamesLowercase : FileRule Parsed messageFieldNamesLowercaseLinter :=
  fileRule C29_message_field_names_lowercase (fun _ _ => trivial) (by in_file)
    (by show s%"MESSAGE_FIELD_NAMES_LOWERCASE" ∉ directoryRules; decide) rfl (fun _ _ => rfl)

theorem rule_messageFieldNamesNoDescriptor : FileRule Parsed messageFieldNamesNoDescriptorLinter :=
  fileRule C56_message_field_names_no_descriptor (fun _ _ => trivial) (by in_file)
    (by show s%"MESSAGE_FIELD_NAMES_NO_DESCRIPTOR" ∉ directoryRules; decide) rfl (fun _ _ => rfl)

theorem rule_messageNamesCamelCase : FileRule Parsed messageNamesCamelCaseLinter :=
  fileRule C29_message_names_camel_case (fun _ _ => trivial) (by in_file)
    (by show s%"MESSAGE_NAMES_CAMEL_CASE" ∉ directoryRules; decide) rfl (fun _ _ => rfl)

theorem rule_messageNamesCapitalized : FileRule Parsed messageNamesCapitalizedLinter :=
  fileRule C29_message_names_capitalized (fun _ _ => trivial) (by in_file)
    (by show s%"MESSAGE_NAMES_CAPITALIZED" ∉ directoryRules; decide) rfl (fun _ _ => rfl)

theorem rule_messagesHaveComments : FileRule Parsed messagesHaveCommentsLinter :=
  fileRule C55_messages_have_comments (fun _ _ => trivial) (by in_file)
    (by show s%"MESSAGES_HAVE_COMMENTS" ∉ directoryRules; decide) rfl (fun _ _ => rfl)

theorem rule_messagesHaveCommentsExceptRequestResponseTypes (env : Env) : FileRule Parsed (messagesHaveCommentsExceptRequestResponseTypesLinter env) :=
  fileRule (C32_comments_except env) (fun _ h => h.grammar) (by
    intro d hd
    refine within_flatMap fun m hm => within_ite (within_one ?_) within_nil
    exact placed_last (placed_named hd) m (List.mem_filter.1 hm).1)
    (by show s%"MESSAGES_HAVE_COMMENTS_EXCEPT_REQUEST_RESPONSE_TYPES" ∉ directoryRules; decide) rfl (fun _ _ => rfl)

theorem rule_messagesHaveSentenceCommentsExceptRequestResponseTypes (env : Env) : FileRule Parsed (messagesHaveSentenceCommentsExceptRequestResponseTypesLinter env) :=
  fileRule (C32_sentence_comments_except env) (fun _ h => h.grammar) (by
    intro d hd
    refine within_flatMap fun m hm => within_ite (within_one ?_) within_nil
    exact placed_last (placed_named hd) m (List.mem_filter.1 hm).1)
    (by show s%"MESSAGES_HAVE_SENTENCE_COMMENTS_EXCEPT_REQUEST_RESPONSE_TYPES" ∉ directoryRules; decide) rfl (fun _ _ => rfl)

theorem rule_messagesNotEmptyExceptRequestResponseTypes (env : Env) : FileRule Parsed (messagesNotEmptyExceptRequestResponseTypesLinter env) :=
  fileRule (C32_not_empty_except env) (fun _ h => h.grammar) (by in_file)
    (by show s%"MESSAGES_NOT_EMPTY_EXCEPT_REQUEST_RESPONSE_TYPES" ∉ directoryRules; decide) rfl (fun _ _ => rfl)

theorem rule_namesNoCommon : FileRule Parsed namesNoCommonLinter :=
  fileRule C28_names_no_common (fun _ _ => trivial) (by
    intro d hd
    refine within_flatMap fun n hn => ?_
    intro p hp
    obtain ⟨c, hc, rfl⟩ := List.mem_map.1 hp
    exact (hd.placed n hn).1)
    (by show s%"NAMES_NO_COMMON" ∉ directoryRules; decide) rfl (fun _ _ => rfl)

theorem rule_namesNoData : FileRule Parsed namesNoDataLinter :=
  fileRule C28_names_no_data (fun _ _ => trivial) (by
    intro d hd
    refine within_flatMap fun n hn => ?_
    intro p hp
    obtain ⟨c, hc, rfl⟩ := List.mem_map.1 hp
    exact (hd.placed n hn).1)
    (by show s%"NAMES_NO_DATA" ∉ directoryRules; decide) rfl (fun _ _ => rfl)

theorem rule_namesNoUUID : FileRule Parsed namesNoUUIDLinter :=
  fileRule C28_names_no_uuid (fun _ _ => trivial) (by
    intro d hd
    refine within_flatMap fun n hn => ?_
    intro p hp
    obtain ⟨c, hc, rfl⟩ := List.mem_map.1 hp
    exact (hd.placed n hn).1)
    (by show s%"NAMES_NO_UUID" ∉ directoryRules; decide) rfl (fun _ _ => rfl)

theorem rule_oneofNamesLowerSnakeCase : FileRule Parsed oneofNamesLowerSnakeCaseLinter :=
  fileRule C29_oneof_names_lower_snake_case (fun _ _ => trivial) (by in_file)
    (by show s%"ONEOF_NAMES_LOWER_SNAKE_CASE" ∉ directoryRules; decide) rfl (fun _ _ => rfl)

theorem rule_packageIsDeclared (env : Env) : FileRule Parsed (packageIsDeclaredLinter env) :=
  fileRule (C59_package_is_declared env) (fun _ _ => trivial) (by in_file)
    (by show s%"PACKAGE_IS_DECLARED" ∉ directoryRules; decide) rfl (fun _ _ => rfl)

theorem rule_packageLowerCase (env : Env) : FileRule Parsed (packageLowerCaseLinter env) :=
  fileRule (C29_package_lower_case env) (fun _ _ => trivial) (by in_file)
    (by show s%"PACKAGE_LOWER_CASE" ∉ directoryRules; decide) rfl (fun _ _ => rfl)

theorem rule_packageLowerSnakeCase (env : Env) : FileRule Parsed (packageLowerSnakeCaseLinter env) :=
  fileRule (C29_package_lower_snake_case env) (fun _ _ => trivial) (by in_file)
    (by show s%"PACKAGE_LOWER_SNAKE_CASE" ∉ directoryRules; decide) rfl (fun _ _ => rfl)

theorem rule_packageMajorBetaVersioned (env : Env) : FileRule Parsed (packageMajorBetaVersionedLinter env) :=
  fileRule (C59_package_versioned env) (fun _ _ => trivial) (by
    intro d hd
    have hp := placed_packages hd
    refine within_append (within_map (sub_tail hp)) ?_
    split
    · exact within_one rfl
    · rename_i h
      exact within_ite (within_one (hp _ (h ▸ List.mem_cons_self))) within_nil)
    (by show s%"PACKAGE_MAJOR_BETA_VERSIONED" ∉ directoryRules; decide) rfl (fun _ _ => rfl)

theorem rule_packageNoKeywords : FileRule Parsed packageNoKeywordsLinter :=
  fileRule C28_package_no_keywords (fun _ _ => trivial) (by
    intro d hd
    refine within_flatMap fun n hn => within_filter fun _ _ => ?_
    exact placed_packages hd n hn)
    (by show s%"PACKAGE_NO_KEYWORDS" ∉ directoryRules; decide) rfl (fun _ _ => rfl)

theorem rule_rpcsHaveComments : FileRule Parsed rpcsHaveCommentsLinter :=
  fileRule C55_rpcs_have_comments (fun _ _ => trivial) (by in_file)
    (by show s%"RPCS_HAVE_COMMENTS" ∉ directoryRules; decide) rfl (fun _ _ => rfl)

theorem rule_rpcsHaveSentenceComments : FileRule Parsed rpcsHaveSentenceCommentsLinter :=
  fileRule C55_rpcs_have_sentence_comments (fun _ _ => trivial) (by in_file)
    (by show s%"RPCS_HAVE_SENTENCE_COMMENTS" ∉ directoryRules; decide) rfl (fun _ _ => rfl)

theorem rule_rpcsNoStreaming : FileRule Parsed rpcsNoStreamingLinter :=
  fileRule C57_rpcs_no_streaming (fun _ _ => trivial) (by in_file)
    (by show s%"RPCS_NO_STREAMING" ∉ directoryRules; decide) rfl (fun _ _ => rfl)

theorem rule_rpcNamesCamelCase : FileRule Parsed rpcNamesCamelCaseLinter :=
  fileRule C29_rpc_names_camel_case (fun _ _ => trivial) (by in_file)
    (by show s%"RPC_NAMES_CAMEL_CASE" ∉ directoryRules; decide) rfl (fun _ _ => rfl)

theorem rule_rpcNamesCapitalized : FileRule Parsed rpcNamesCapitalizedLinter :=
  fileRule C29_rpc_names_capitalized (fun _ _ => trivial) (by in_file)
    (by show s%"RPC_NAMES_CAPITALIZED" ∉ directoryRules; decide) rfl (fun _ _ => rfl)

theorem rule_requestResponseTypesAfterService : FileRule Parsed requestResponseTypesAfterServiceLinter :=
  fileRule C32_after_service (fun _ h => h.grammar) (by in_file)
    (by show s%"REQUEST_RESPONSE_TYPES_AFTER_SERVICE" ∉ directoryRules; decide) rfl (fun _ _ => rfl)

theorem rule_requestResponseTypesInSameFile : FileRule Parsed requestResponseTypesInSameFileLinter :=
  fileRule C32_in_same_file (fun _ h => h.grammar) (by
    intro d hd
    refine within_flatMap fun r hr => within_append (within_ite (within_one ?_) within_nil)
      (within_ite (within_one ?_) within_nil) <;> exact placed_rpcs hd r hr)
    (by show s%"REQUEST_RESPONSE_TYPES_IN_SAME_FILE" ∉ directoryRules; decide) rfl (fun _ _ => rfl)

theorem rule_requestResponseTypesOnlyInFile (env : Env) : FileRule Parsed (requestResponseTypesOnlyInFileLinter env) :=
  fileRule (C32_only_in_file env) (fun _ h => h.grammar) (by in_file)
    (by show s%"REQUEST_RESPONSE_TYPES_ONLY_IN_FILE" ∉ directoryRules; decide) rfl (fun _ _ => rfl)

theorem rule_requestResponseTypesUnique : FileRule Parsed requestResponseTypesUniqueLinter :=
  fileRule C32_unique (fun _ _ => trivial) (by
    intro d hd
    refine placed_repeats fun u hu => ?_
    obtain ⟨r, hr, h⟩ := List.mem_flatMap.1 hu
    simp only [List.mem_cons, List.not_mem_nil, or_false] at h
    rcases h with rfl | rfl <;> exact placed_rpcs hd r hr)
    (by show s%"REQUEST_RESPONSE_TYPES_UNIQUE" ∉ directoryRules; decide) rfl (fun _ _ => rfl)

theorem rule_requestResponseNamesMatchRPC : FileRule Parsed requestResponseNamesMatchRPCLinter :=
  fileRule C32_names_match (fun _ _ => trivial) (by
    intro d hd
    refine within_flatMap fun r hr => within_append (within_ite (within_one ?_) within_nil)
      (within_ite (within_one ?_) within_nil) <;> exact placed_rpcs hd r hr)
    (by show s%"REQUEST_RESPONSE_NAMES_MATCH_RPC" ∉ directoryRules; decide) rfl (fun _ _ => rfl)

theorem rule_servicesHaveComments : FileRule Parsed servicesHaveCommentsLinter :=
  fileRule C55_services_have_comments (fun _ _ => trivial) (by in_file)
    (by show s%"SERVICES_HAVE_COMMENTS" ∉ directoryRules; decide) rfl (fun _ _ => rfl)

theorem rule_servicesHaveSentenceComments : FileRule Parsed servicesHaveSentenceCommentsLinter :=
  fileRule C55_services_have_sentence_comments (fun _ _ => trivial) (by in_file)
    (by show s%"SERVICES_HAVE_SENTENCE_COMMENTS" ∉ directoryRules; decide) rfl (fun _ _ => rfl)

theorem rule_serviceNamesAPISuffix : FileRule Parsed serviceNamesAPISuffixLinter :=
  fileRule C57_service_names_api_suffix (fun _ _ => trivial) (by in_file)
    (by show s%"SERVICE_NAMES_API_SUFFIX" ∉ directoryRules; decide) rfl (fun _ _ => rfl)

theorem rule_serviceNamesCamelCase : FileRule Parsed serviceNamesCamelCaseLinter :=
  fileRule C29_service_names_camel_case (fun _ _ => trivial) (by in_file)
    (by show s%"SERVICE_NAMES_CAMEL_CASE" ∉ directoryRules; decide) rfl (fun _ _ => rfl)

theorem rule_serviceNamesCapitalized : FileRule Parsed serviceNamesCapitalizedLinter :=
  fileRule C29_service_names_capitalized (fun _ _ => trivial) (by in_file)
    (by show s%"SERVICE_NAMES_CAPITALIZED" ∉ directoryRules; decide) rfl (fun _ _ => rfl)

theorem rule_serviceNamesMatchFileName : FileRule Parsed serviceNamesMatchFileNameLinter :=
  fileRule C59_service_names_match_file_name (fun _ h => h.proto) (by
    intro d hd
    have hp := placed_services hd
    split
    · exact within_nil
    · rename_i h
      exact within_ite (within_one (hp _ (h ▸ List.mem_cons_self))) within_nil
    · exact within_map hp)
    (by show s%"SERVICE_NAMES_MATCH_FILE_NAME" ∉ directoryRules; decide) rfl (fun _ _ => rfl)

theorem rule_serviceNamesNoPlurals (env : Env) : FileRule Parsed (serviceNamesNoPluralsLinter env) :=
  fileRule (C28_service_names_no_plurals env) (fun _ _ => trivial) (by
    intro d hd
    refine within_flatMap fun n hn => within_filter fun _ _ => ?_
    exact placed_services hd n hn)
    (by show s%"SERVICE_NAMES_NO_PLURALS" ∉ directoryRules; decide) rfl (fun _ _ => rfl)

theorem rule_syntaxProto3 (env : Env) : FileRule Parsed (syntaxProto3Linter env) :=
  fileRule (C59_syntax_proto3 env) (fun _ _ => trivial) (by
    intro d hd
    have hp := placed_syntaxes hd
    refine within_append (within_map (sub_tail hp)) ?_
    split
    · exact within_one rfl
    · rename_i h
      exact within_ite (within_one (hp _ (h ▸ List.mem_cons_self))) within_nil)
    (by show s%"SYNTAX_PROTO3" ∉ directoryRules; decide) rfl (fun _ _ => rfl)

theorem rule_wktDirectlyImported (env : Env) : FileRule Parsed (wktDirectlyImportedLinter env) :=
  fileRule (C57_wkt_directly_imported env) (fun _ _ => trivial) (by in_file)
    (by show s%"WKT_DIRECTLY_IMPORTED" ∉ directoryRules; decide) rfl (fun _ _ => rfl)

theorem rule_wktDurationSuffix : FileRule Parsed wktDurationSuffixLinter :=
  fileRule C56_wkt_duration_suffix (fun _ _ => trivial) (by in_file)
    (by show s%"WKT_DURATION_SUFFIX" ∉ directoryRules; decide) rfl (fun _ _ => rfl)

theorem rule_wktTimestampSuffix : FileRule Parsed wktTimestampSuffixLinter :=
  fileRule C56_wkt_timestamp_suffix (fun _ _ => trivial) (by in_file)
    (by show s%"WKT_TIMESTAMP_SUFFIX" ∉ directoryRules; decide) rfl (fun _ _ => rfl)

theorem rule_rpcOptionsNoGoogleAPIHTTP :
    FileRule (fun d => Parsed d ∧ NoOuterHTTP d) rpcOptionsNoGoogleAPIHTTPLinter :=
  fileRule C28_rpc_options_no_google_api_http (fun _ h => ⟨h.1.grammar, h.2⟩) (by
    intro d hd
    exact within_filter (placed_rpcOptions hd.1))
    (by decide) rfl (fun _ _ => rfl)

theorem rule_requiring : ∀ p ∈ requiring, FileRule Parsed p.1 := by
  intro p hp
  have h := C58_required p hp
  have hl : Lands Parsed p.1 := .on h (fun _ _ => trivial) (by in_file)
  simp only [requiring, List.mem_cons, List.not_mem_nil, or_false] at hp
  rcases hp with rfl | rfl | rfl | rfl | rfl | rfl | rfl | rfl <;>
    exact ⟨by decide, perFile_fresh rfl (fun _ _ => rfl), hl⟩

theorem rule_forbidding : ∀ p ∈ forbidding, FileRule Parsed p.1 := by
  intro p hp
  have h := C58_unset p hp
  have hl : Lands Parsed p.1 := .on h (fun _ _ => trivial) (by
    intro d hd
    exact within_map (sub_last (sub_filter (placed_fileOptions hd))))
  simp only [forbidding, List.mem_cons, List.not_mem_nil, or_false] at hp
  rcases hp with rfl | rfl <;>
    exact ⟨by decide, perFile_fresh rfl (fun _ _ => rfl), hl⟩

theorem rule_prescribing : ∀ p ∈ prescribing, FileRule Parsed p.1 := by
  intro p hp
  have h := C58_prescribed p hp
  have hl : Lands Parsed p.1 := .on h (fun _ h => parsed_named h) (by
    intro d hd
    split
    · exact within_nil
    · exact within_filter (sub_last (sub_filter (placed_fileOptions hd))))
  simp only [prescribing, List.mem_cons, List.not_mem_nil, or_false] at hp
  rcases hp with rfl | rfl | rfl | rfl | rfl | rfl | rfl | rfl | rfl <;>
    exact ⟨by decide, perFile_fresh rfl (fun _ _ => rfl), hl⟩

theorem rule_packagesSameInDir (env : Env) : DirRule (packagesSameInDirLinter env) :=
  ⟨by show s%"PACKAGES_SAME_IN_DIR" ∈ directoryRules; decide, _, _, C31_packages_same_in_dir env, fun _ hd => within_map (sub_tail (placed_packages hd))⟩

theorem rule_sameInDir (env : Env) : ∀ p ∈ sameInDir env, DirRule p.1 := by
  intro p hp
  refine ⟨?_, _, _, C31_options_same_in_dir env p hp,
    fun _ hd => within_map (sub_tail (sub_filter (placed_fileOptions hd)))⟩
  have : p.1.id ∈ (sameInDir env).map (·.1.id) := List.mem_map_of_mem (f := fun p => p.1.id) hp
  have hs : ∀ id ∈ (sameInDir env).map (·.1.id), id ∈ directoryRules := by
    show ∀ id ∈ [s%"FILE_OPTIONS_CSHARP_NAMESPACE_SAME_IN_DIR", s%"FILE_OPTIONS_GO_PACKAGE_SAME_IN_DIR",
      s%"FILE_OPTIONS_JAVA_MULTIPLE_FILES_SAME_IN_DIR", s%"FILE_OPTIONS_JAVA_PACKAGE_SAME_IN_DIR",
      s%"FILE_OPTIONS_OBJC_CLASS_PREFIX_SAME_IN_DIR", s%"FILE_OPTIONS_PHP_NAMESPACE_SAME_IN_DIR"],
      id ∈ directoryRules
    decide
  exact hs _ this

/-- Every rule is of one of these kinds. -/
inductive RuleKind (l : Linter) : Prop
  | file (h : FileRule Parsed l) (hn : l.id ≠ httpRule)
  | http (h : FileRule (fun d => Parsed d ∧ NoOuterHTTP d) l)
      (he : l = rpcOptionsNoGoogleAPIHTTPLinter)
  | dir (h : DirRule l)

theorem rule_all (env : Env) : ∀ l ∈ allLinters env, RuleKind l := by
  unfold allLinters

  refine List.forall_mem_cons.2 ⟨.file rule_commentsNoCStyle (by show s%"COMMENTS_NO_C_STYLE" ≠ httpRule; decide), ?_⟩
  refine List.forall_mem_cons.2 ⟨.file rule_commentsNoInline (by show s%"COMMENTS_NO_INLINE" ≠ httpRule; decide), ?_⟩
  refine List.forall_mem_cons.2 ⟨.file rule_enumFieldNamesUppercase (by show s%"ENUM_FIELD_NAMES_UPPERCASE" ≠ httpRule; decide), ?_⟩
  refine List.forall_mem_cons.2 ⟨.file rule_enumFieldNamesUpperSnakeCase (by show s%"ENUM_FIELD_NAMES_UPPER_SNAKE_CASE" ≠ httpRule; decide), ?_⟩
  refine List.forall_mem_cons.2 ⟨.file rule_enumFieldPrefixes (by show s%"ENUM_FIELD_PREFIXES" ≠ httpRule; decide), ?_⟩
  refine List.forall_mem_cons.2 ⟨.file rule_enumFieldPrefixesExceptMessage (by show s%"ENUM_FIELD_PREFIXES_EXCEPT_MESSAGE" ≠ httpRule; decide), ?_⟩
  refine List.forall_mem_cons.2 ⟨.file rule_enumFieldsHaveComments (by show s%"ENUM_FIELDS_HAVE_COMMENTS" ≠ httpRule; decide), ?_⟩
  refine List.forall_mem_cons.2 ⟨.file rule_enumFieldsHaveSentenceComments (by show s%"ENUM_FIELDS_HAVE_SENTENCE_COMMENTS" ≠ httpRule; decide), ?_⟩
  refine List.forall_mem_cons.2 ⟨.file rule_enumNamesCamelCase (by show s%"ENUM_NAMES_CAMEL_CASE" ≠ httpRule; decide), ?_⟩
  refine List.forall_mem_cons.2 ⟨.file rule_enumNamesCapitalized (by show s%"ENUM_NAMES_CAPITALIZED" ≠ httpRule; decide), ?_⟩
  refine List.forall_mem_cons.2 ⟨.file rule_enumZeroValuesInvalid (by show s%"ENUM_ZERO_VALUES_INVALID" ≠ httpRule; decide), ?_⟩
  refine List.forall_mem_cons.2 ⟨.file rule_enumZeroValuesInvalidExceptMessage (by show s%"ENUM_ZERO_VALUES_INVALID_EXCEPT_MESSAGE" ≠ httpRule; decide), ?_⟩
  refine List.forall_mem_cons.2 ⟨.file rule_enumsHaveComments (by show s%"ENUMS_HAVE_COMMENTS" ≠ httpRule; decide), ?_⟩
  refine List.forall_mem_cons.2 ⟨.file rule_enumsHaveSentenceComments (by show s%"ENUMS_HAVE_SENTENCE_COMMENTS" ≠ httpRule; decide), ?_⟩
  refine List.forall_mem_cons.2 ⟨.file rule_enumsNoAllowAlias (by show s%"ENUMS_NO_ALLOW_ALIAS" ≠ httpRule; decide), ?_⟩
  refine List.forall_mem_cons.2 ⟨.file rule_fieldsNotReserved (by show s%"FIELDS_NOT_RESERVED" ≠ httpRule; decide), ?_⟩
  refine List.forall_mem_cons.2 ⟨.file rule_fileHeader (by show s%"FILE_HEADER" ≠ httpRule; decide), ?_⟩
  refine List.forall_mem_cons.2 ⟨.file rule_fileNamesLowerSnakeCase (by show s%"FILE_NAMES_LOWER_SNAKE_CASE" ≠ httpRule; decide), ?_⟩
  refine List.forall_mem_cons.2 ⟨.dir (rule_sameInDir env _ (List.mem_cons_self)), ?_⟩
  refine List.forall_mem_cons.2 ⟨.file (rule_prescribing _ (List.mem_cons_self)) (by decide), ?_⟩
  refine List.forall_mem_cons.2 ⟨.file (rule_prescribing _ (List.mem_cons_of_mem _ List.mem_cons_self)) (by decide), ?_⟩
  refine List.forall_mem_cons.2 ⟨.file (rule_prescribing _ (List.mem_cons_of_mem _ (List.mem_cons_of_mem _ List.mem_cons_self))) (by decide), ?_⟩
  refine List.forall_mem_cons.2 ⟨.file (rule_prescribing _ (List.mem_cons_of_mem _ (List.mem_cons_of_mem _ (List.mem_cons_of_mem _ List.mem_cons_self)))) (by decide), ?_⟩
  refine List.forall_mem_cons.2 ⟨.file (rule_prescribing _ (List.mem_cons_of_mem _ (List.mem_cons_of_mem _ (List.mem_cons_of_mem _ (List.mem_cons_of_mem _ List.mem_cons_self))))) (by decide), ?_⟩
  refine List.forall_mem_cons.2 ⟨.file (rule_prescribing _ (List.mem_cons_of_mem _ (List.mem_cons_of_mem _ (List.mem_cons_of_mem _ (List.mem_cons_of_mem _ (List.mem_cons_of_mem _ List.mem_cons_self)))))) (by decide), ?_⟩
  refine List.forall_mem_cons.2 ⟨.file (rule_prescribing _ (List.mem_cons_of_mem _ (List.mem_cons_of_mem _ (List.mem_cons_of_mem _ (List.mem_cons_of_mem _ (List.mem_cons_of_mem _ (List.mem_cons_of_mem _ List.mem_cons_self))))))) (by decide), ?_⟩
  refine List.forall_mem_cons.2 ⟨.file (rule_prescribing _ (List.mem_cons_of_mem _ (List.mem_cons_of_mem _ (List.mem_cons_of_mem _ (List.mem_cons_of_mem _ (List.mem_cons_of_mem _ (List.mem_cons_of_mem _ (List.mem_cons_of_mem _ List.mem_cons_self)))))))) (by decide), ?_⟩
  refine List.forall_mem_cons.2 ⟨.file (rule_prescribing _ (List.mem_cons_of_mem _ (List.mem_cons_of_mem _ (List.mem_cons_of_mem _ (List.mem_cons_of_mem _ (List.mem_cons_of_mem _ (List.mem_cons_of_mem _ (List.mem_cons_of_mem _ (List.mem_cons_of_mem _ List.mem_cons_self))))))))) (by decide), ?_⟩
  refine List.forall_mem_cons.2 ⟨.file rule_fileOptionsGoPackageNotLongForm (by show s%"FILE_OPTIONS_GO_PACKAGE_NOT_LONG_FORM" ≠ httpRule; decide), ?_⟩
  refine List.forall_mem_cons.2 ⟨.dir (rule_sameInDir env _ (List.mem_cons_of_mem _ List.mem_cons_self)), ?_⟩
  refine List.forall_mem_cons.2 ⟨.dir (rule_sameInDir env _ (List.mem_cons_of_mem _ (List.mem_cons_of_mem _ List.mem_cons_self))), ?_⟩
  refine List.forall_mem_cons.2 ⟨.dir (rule_sameInDir env _ (List.mem_cons_of_mem _ (List.mem_cons_of_mem _ (List.mem_cons_of_mem _ List.mem_cons_self)))), ?_⟩
  refine List.forall_mem_cons.2 ⟨.dir (rule_sameInDir env _ (List.mem_cons_of_mem _ (List.mem_cons_of_mem _ (List.mem_cons_of_mem _ (List.mem_cons_of_mem _ List.mem_cons_self))))), ?_⟩
  refine List.forall_mem_cons.2 ⟨.dir (rule_sameInDir env _ (List.mem_cons_of_mem _ (List.mem_cons_of_mem _ (List.mem_cons_of_mem _ (List.mem_cons_of_mem _ (List.mem_cons_of_mem _ List.mem_cons_self)))))), ?_⟩
  refine List.forall_mem_cons.2 ⟨.file (rule_requiring _ (List.mem_cons_self)) (by decide), ?_⟩
  refine List.forall_mem_cons.2 ⟨.file (rule_requiring _ (List.mem_cons_of_mem _ List.mem_cons_self)) (by decide), ?_⟩
  refine List.forall_mem_cons.2 ⟨.file (rule_requiring _ (List.mem_cons_of_mem _ (List.mem_cons_of_mem _ List.mem_cons_self))) (by decide), ?_⟩
  refine List.forall_mem_cons.2 ⟨.file (rule_requiring _ (List.mem_cons_of_mem _ (List.mem_cons_of_mem _ (List.mem_cons_of_mem _ List.mem_cons_self)))) (by decide), ?_⟩
  refine List.forall_mem_cons.2 ⟨.file (rule_requiring _ (List.mem_cons_of_mem _ (List.mem_cons_of_mem _ (List.mem_cons_of_mem _ (List.mem_cons_of_mem _ List.mem_cons_self))))) (by decide), ?_⟩
  refine List.forall_mem_cons.2 ⟨.file (rule_requiring _ (List.mem_cons_of_mem _ (List.mem_cons_of_mem _ (List.mem_cons_of_mem _ (List.mem_cons_of_mem _ (List.mem_cons_of_mem _ List.mem_cons_self)))))) (by decide), ?_⟩
  refine List.forall_mem_cons.2 ⟨.file (rule_requiring _ (List.mem_cons_of_mem _ (List.mem_cons_of_mem _ (List.mem_cons_of_mem _ (List.mem_cons_of_mem _ (List.mem_cons_of_mem _ (List.mem_cons_of_mem _ List.mem_cons_self))))))) (by decide), ?_⟩
  refine List.forall_mem_cons.2 ⟨.file (rule_requiring _ (List.mem_cons_of_mem _ (List.mem_cons_of_mem _ (List.mem_cons_of_mem _ (List.mem_cons_of_mem _ (List.mem_cons_of_mem _ (List.mem_cons_of_mem _ (List.mem_cons_of_mem _ List.mem_cons_self)))))))) (by decide), ?_⟩
  refine List.forall_mem_cons.2 ⟨.file (rule_forbidding _ (List.mem_cons_self)) (by decide), ?_⟩
  refine List.forall_mem_cons.2 ⟨.file (rule_forbidding _ (List.mem_cons_of_mem _ List.mem_cons_self)) (by decide), ?_⟩
  refine List.forall_mem_cons.2 ⟨.file rule_gogoNotImported (by show s%"GOGO_NOT_IMPORTED" ≠ httpRule; decide), ?_⟩
  refine List.forall_mem_cons.2 ⟨.file rule_importsNotPublic (by show s%"IMPORTS_NOT_PUBLIC" ≠ httpRule; decide), ?_⟩
  refine List.forall_mem_cons.2 ⟨.file rule_importsNotWeak (by show s%"IMPORTS_NOT_WEAK" ≠ httpRule; decide), ?_⟩
  refine List.forall_mem_cons.2 ⟨.file rule_messageFieldsDuration (by show s%"MESSAGE_FIELDS_DURATION" ≠ httpRule; decide), ?_⟩
  refine List.forall_mem_cons.2 ⟨.file rule_messageFieldsHaveComments (by show s%"MESSAGE_FIELDS_HAVE_COMMENTS" ≠ httpRule; decide), ?_⟩
  refine List.forall_mem_cons.2 ⟨.file rule_messageFieldsHaveSentenceComments (by show s%"MESSAGE_FIELDS_HAVE_SENTENCE_COMMENTS" ≠ httpRule; decide), ?_⟩
  refine List.forall_mem_cons.2 ⟨.file rule_messageFieldsNotFloats (by show s%"MESSAGE_FIELDS_NOT_FLOATS" ≠ httpRule; decide), ?_⟩
  refine List.forall_mem_cons.2 ⟨.file rule_messageFieldsNoJSONName (by show s%"MESSAGE_FIELDS_NO_JSON_NAME" ≠ httpRule; decide), ?_⟩
  refine List.forall_mem_cons.2 ⟨.file rule_messageFieldsTime (by show s%"MESSAGE_FIELDS_TIME" ≠ httpRule; decide), ?_⟩
  refine List.forall_mem_cons.2 ⟨.file rule_messageFieldNamesFilename (by show s%"MESSAGE_FIELD_NAMES_FILENAME" ≠ httpRule; decide), ?_⟩
  refine List.forall_mem_cons.2 ⟨.file rule_messageFieldNamesFilepath (by show s%"MESSAGE_FIELD_NAMES_FILEPATH" ≠ httpRule; decide), ?_⟩
  refine List.forall_mem_cons.2 ⟨.file rule_messageFieldNamesLowerSnakeCase (by show s%"MESSAGE_FIELD_NAMES_LOWER_SNAKE_CASE" ≠ httpRule; decide), ?_⟩
  refine List.forall_mem_cons.2 ⟨.file rule_messageFieldNamesLowercase (by show s%"MESSAGE_FIELD_NAMES_LOWERCASE" ≠ httpRule; decide), ?_⟩
  refine List.forall_mem_cons.2 ⟨.file rule_messageFieldNamesNoDescriptor (by show s%"MESSAGE_FIELD_NAMES_NO_DESCRIPTOR" ≠ httpRule; decide), ?_⟩
  refine List.forall_mem_cons.2 ⟨.file rule_messageNamesCamelCase (by show s%"MESSAGE_NAMES_CAMEL_CASE" ≠ httpRule; decide), ?_⟩
  refine List.forall_mem_cons.2 ⟨.file rule_messageNamesCapitalized (by show s%"MESSAGE_NAMES_CAPITALIZED" ≠ httpRule; decide), ?_⟩
  refine List.forall_mem_cons.2 ⟨.file rule_messagesHaveComments (by show s%"MESSAGES_HAVE_COMMENTS" ≠ httpRule; decide), ?_⟩
  refine List.forall_mem_cons.2 ⟨.file (rule_messagesHaveCommentsExceptRequestResponseTypes env) (by show s%"MESSAGES_HAVE_COMMENTS_EXCEPT_REQUEST_RESPONSE_TYPES" ≠ httpRule; decide), ?_⟩
  refine List.forall_mem_cons.2 ⟨.file (rule_messagesHaveSentenceCommentsExceptRequestResponseTypes env) (by show s%"MESSAGES_HAVE_SENTENCE_COMMENTS_EXCEPT_REQUEST_RESPONSE_TYPES" ≠ httpRule; decide), ?_⟩
  refine List.forall_mem_cons.2 ⟨.file (rule_messagesNotEmptyExceptRequestResponseTypes env) (by show s%"MESSAGES_NOT_EMPTY_EXCEPT_REQUEST_RESPONSE_TYPES" ≠ httpRule; decide), ?_⟩
  refine List.forall_mem_cons.2 ⟨.file rule_namesNoCommon (by show s%"NAMES_NO_COMMON" ≠ httpRule; decide), ?_⟩
  refine List.forall_mem_cons.2 ⟨.file rule_namesNoData (by show s%"NAMES_NO_DATA" ≠ httpRule; decide), ?_⟩
  refine List.forall_mem_cons.2 ⟨.file rule_namesNoUUID (by show s%"NAMES_NO_UUID" ≠ httpRule; decide), ?_⟩
  refine List.forall_mem_cons.2 ⟨.file rule_oneofNamesLowerSnakeCase (by show s%"ONEOF_NAMES_LOWER_SNAKE_CASE" ≠ httpRule; decide), ?_⟩
  refine List.forall_mem_cons.2 ⟨.file (rule_packageIsDeclared env) (by show s%"PACKAGE_IS_DECLARED" ≠ httpRule; decide), ?_⟩
  refine List.forall_mem_cons.2 ⟨.file (rule_packageLowerCase env) (by show s%"PACKAGE_LOWER_CASE" ≠ httpRule; decide), ?_⟩
  refine List.forall_mem_cons.2 ⟨.file (rule_packageLowerSnakeCase env) (by show s%"PACKAGE_LOWER_SNAKE_CASE" ≠ httpRule; decide), ?_⟩
  refine List.forall_mem_cons.2 ⟨.file (rule_packageMajorBetaVersioned env) (by show s%"PACKAGE_MAJOR_BETA_VERSIONED" ≠ httpRule; decide), ?_⟩
  refine List.forall_mem_cons.2 ⟨.file rule_packageNoKeywords (by show s%"PACKAGE_NO_KEYWORDS" ≠ httpRule; decide), ?_⟩
  refine List.forall_mem_cons.2 ⟨.dir (rule_packagesSameInDir env), ?_⟩
  refine List.forall_mem_cons.2 ⟨.file rule_rpcsHaveComments (by show s%"RPCS_HAVE_COMMENTS" ≠ httpRule; decide), ?_⟩
  refine List.forall_mem_cons.2 ⟨.file rule_rpcsHaveSentenceComments (by show s%"RPCS_HAVE_SENTENCE_COMMENTS" ≠ httpRule; decide), ?_⟩
  refine List.forall_mem_cons.2 ⟨.file rule_rpcsNoStreaming (by show s%"RPCS_NO_STREAMING" ≠ httpRule; decide), ?_⟩
  refine List.forall_mem_cons.2 ⟨.file rule_rpcNamesCamelCase (by show s%"RPC_NAMES_CAMEL_CASE" ≠ httpRule; decide), ?_⟩
  refine List.forall_mem_cons.2 ⟨.file rule_rpcNamesCapitalized (by show s%"RPC_NAMES_CAPITALIZED" ≠ httpRule; decide), ?_⟩
  refine List.forall_mem_cons.2 ⟨.http rule_rpcOptionsNoGoogleAPIHTTP rfl, ?_⟩
  refine List.forall_mem_cons.2 ⟨.file rule_requestResponseTypesAfterService (by show s%"REQUEST_RESPONSE_TYPES_AFTER_SERVICE" ≠ httpRule; decide), ?_⟩
  refine List.forall_mem_cons.2 ⟨.file rule_requestResponseTypesInSameFile (by show s%"REQUEST_RESPONSE_TYPES_IN_SAME_FILE" ≠ httpRule; decide), ?_⟩
  refine List.forall_mem_cons.2 ⟨.file (rule_requestResponseTypesOnlyInFile env) (by show s%"REQUEST_RESPONSE_TYPES_ONLY_IN_FILE" ≠ httpRule; decide), ?_⟩
  refine List.forall_mem_cons.2 ⟨.file rule_requestResponseTypesUnique (by show s%"REQUEST_RESPONSE_TYPES_UNIQUE" ≠ httpRule; decide), ?_⟩
  refine List.forall_mem_cons.2 ⟨.file rule_requestResponseNamesMatchRPC (by show s%"REQUEST_RESPONSE_NAMES_MATCH_RPC" ≠ httpRule; decide), ?_⟩
  refine List.forall_mem_cons.2 ⟨.file rule_servicesHaveComments (by show s%"SERVICES_HAVE_COMMENTS" ≠ httpRule; decide), ?_⟩
  refine List.forall_mem_cons.2 ⟨.file rule_servicesHaveSentenceComments (by show s%"SERVICES_HAVE_SENTENCE_COMMENTS" ≠ httpRule; decide), ?_⟩
  refine List.forall_mem_cons.2 ⟨.file rule_serviceNamesAPISuffix (by show s%"SERVICE_NAMES_API_SUFFIX" ≠ httpRule; decide), ?_⟩
  refine List.forall_mem_cons.2 ⟨.file rule_serviceNamesCamelCase (by show s%"SERVICE_NAMES_CAMEL_CASE" ≠ httpRule; decide), ?_⟩
  refine List.forall_mem_cons.2 ⟨.file rule_serviceNamesCapitalized (by show s%"SERVICE_NAMES_CAPITALIZED" ≠ httpRule; decide), ?_⟩
  refine List.forall_mem_cons.2 ⟨.file rule_serviceNamesMatchFileName (by show s%"SERVICE_NAMES_MATCH_FILE_NAME" ≠ httpRule; decide), ?_⟩
  refine List.forall_mem_cons.2 ⟨.file (rule_serviceNamesNoPlurals env) (by show s%"SERVICE_NAMES_NO_PLURALS" ≠ httpRule; decide), ?_⟩
  refine List.forall_mem_cons.2 ⟨.file (rule_syntaxProto3 env) (by show s%"SYNTAX_PROTO3" ≠ httpRule; decide), ?_⟩
  refine List.forall_mem_cons.2 ⟨.file (rule_wktDirectlyImported env) (by show s%"WKT_DIRECTLY_IMPORTED" ≠ httpRule; decide), ?_⟩
  refine List.forall_mem_cons.2 ⟨.file rule_wktDurationSuffix (by show s%"WKT_DURATION_SUFFIX" ≠ httpRule; decide), ?_⟩
  refine List.forall_mem_cons.2 ⟨.file rule_wktTimestampSuffix (by show s%"WKT_TIMESTAMP_SUFFIX" ≠ httpRule; decide), ?_⟩
  exact fun _ h => nomatch h

end Verif.Lint
