{
 "claims": [
  {
   "property": "C01",
   "status": "proved",
   "theorems": [
    "Verif.Props.C01_clean_iff_compatible",
    "Verif.Props.C01_descriptors"
   ],
   "note": "Schemas are those protoc and reflection produce (SchemaOK); C01_descriptors starts from descriptor sets."
  },
  {
   "property": "C02",
   "status": "proved",
   "theorems": [
    "Verif.Props.C02_reflexive"
   ],
   "note": "All well-formed schemas, all settings, all map orders."
  },
  {
   "property": "C03",
   "status": "proved",
   "theorems": [
    "Verif.Props.C03_transitive",
    "Verif.Props.C03_history"
   ],
   "note": "Triples and arbitrary finite histories."
  },
  {
   "property": "C04",
   "status": "proved",
   "theorems": [
    "Verif.Props.C04_additions",
    "Verif.Props.C04_alias_is_reported"
   ],
   "note": "Additions at any nesting depth; enum values need unused numbers (an alias of a used number is reported, see C04_alias_is_reported)."
  },
  {
   "property": "C05",
   "status": "proved",
   "theorems": [
    "Verif.Props.C05_beta_irrelevant"
   ],
   "note": "Outcome is equal when the stable packages are equal."
  },
  {
   "property": "C06",
   "status": "proved",
   "theorems": [
    "Verif.Props.C06_reports",
    "Verif.Props.C06_once",
    "Verif.Props.C06_nodup"
   ],
   "note": "Failures are exactly those of the specification relation MustReport, with identifier and text; no check reports an element twice, and no failure is given twice when full names are unique in the old schema."
  },
  {
   "property": "C07",
   "status": "proved",
   "theorems": [
    "Verif.Props.C07_order_independent"
   ],
   "note": "Any two iteration orders of all maps give the same sorted failures."
  },
  {
   "property": "C08",
   "status": "proved",
   "theorems": [
    "Verif.Props.C08_same_packages",
    "Verif.Props.C08_same_outcome",
    "Verif.Props.C08_not_breaking"
   ],
   "note": "Marshalling is a parameter, injective on the files at hand. Enum values may be reordered only if numbers are distinct (aliases are ordered by position)."
  },
  {
   "property": "C09",
   "status": "proved",
   "theorems": [
    "Verif.Props.C09_links",
    "Verif.Props.C09_packages",
    "Verif.Props.C09_fails_iff"
   ],
   "note": "Mirror, membership and exact failure condition."
  },
  {
   "property": "C10",
   "status": "proved",
   "theorems": [
    "Verif.Props.C10_succeeds_iff",
    "Verif.Props.C10_union",
    "Verif.Props.C10_order_independent"
   ],
   "note": "Marshalling with SHA-256 is a parameter, assumed to succeed and to be injective on the files at hand. sort.Slice is any function sorting by the comparison."
  },
  {
   "property": "C11",
   "status": "proved",
   "theorems": [
    "Verif.Props.C11_moves_target",
    "Verif.Props.C11_fails_iff"
   ],
   "note": ""
  },
  {
   "property": "C12",
   "status": "proved",
   "theorems": [
    "Verif.Props.C12_succeeds_iff",
    "Verif.Props.C12_describes",
    "Verif.Props.C12_order_independent",
    "Verif.Props.C12_schemaOK"
   ],
   "note": "Order independence needs that names identify the definitions of a package, as protoc ensures; sort.Slice leaves ties open otherwise."
  },
  {
   "property": "C13",
   "status": "proved",
   "theorems": [
    "Verif.Props.C13_majorBetaVersion",
    "Verif.Props.C13_not_versioned",
    "Verif.Props.C13_unique",
    "Verif.Props.C13_roundtrip"
   ],
   "note": ""
  },
  {
   "property": "C14",
   "status": "proved",
   "theorems": [
    "Verif.Props.C14_sortUniq",
    "Verif.Props.C14_sortUniqModify",
    "Verif.Props.C14_intersection",
    "Verif.Props.C14_order_independent",
    "Verif.Props.C14_keys"
   ],
   "note": "all map iteration orders"
  },
  {
   "property": "C15",
   "status": "partial",
   "theorems": [
    "Verif.Props.C15_wellformed",
    "Verif.Props.C15_keeps_letters",
    "Verif.Props.C15_words",
    "Verif.Props.C15_boundaries",
    "Verif.Props.C15_idempotent_partial",
    "Verif.Props.C15_upper_not_idempotent"
   ],
   "note": "Idempotence holds for lower snake case; for upper snake case it is false of the code (FooBar -> FOO_BAR -> FO_O_BAR), shown by C15_upper_not_idempotent."
  },
  {
   "property": "C16",
   "status": "proved",
   "theorems": [
    "Verif.Props.C16_split_lossless",
    "Verif.Props.C16_split_words"
   ],
   "note": ""
  },
  {
   "property": "C17",
   "status": "partial",
   "theorems": [
    "Verif.Props.C17_line_shape",
    "Verif.Props.C17_line_joined_partial",
    "Verif.Props.C17_dangling_colon",
    "Verif.Props.C17_unknown_field",
    "Verif.Props.C17_never_zero",
    "Verif.Props.C17_parse_field",
    "Verif.Props.C17_parse_field_only",
    "Verif.Props.C17_parse_fields"
   ],
   "note": "exact output proved for all inputs; the colon-join reading fails when the last selected field is empty (dangling colon, witness)"
  },
  {
   "property": "C18",
   "status": "proved",
   "theorems": [
    "Verif.Props.C18_sorted",
    "Verif.Props.C18_canonical",
    "Verif.Props.C18_unique",
    "Verif.Props.C18_nil_first"
   ],
   "note": ""
  },
  {
   "property": "C19",
   "status": "proved",
   "theorems": [
    "Verif.Props.C19_nearest",
    "Verif.Props.C19_relative"
   ],
   "note": "Host.stat is a parameter. The loop is bounded by the path length; C19_nearest shows the bound is never reached for absolute paths."
  },
  {
   "property": "C20",
   "status": "proved",
   "theorems": [
    "Verif.Props.C20_components",
    "Verif.Props.C20_outside",
    "Verif.Props.C20_no_partial_names",
    "Verif.Props.C20_relative_diverges"
   ],
   "note": "C20_relative_diverges shows that the Go loop does not end on relative paths; callers pass absolute ones."
  },
  {
   "property": "C21",
   "status": "proved",
   "theorems": [
    "Verif.Props.C21_walk",
    "Verif.Props.C21_walk_succeeds",
    "Verif.Props.C21_discovery",
    "Verif.Props.C21_excludes_below"
   ],
   "note": "The hypothesis ExcludesBelow says that configurations exclude only paths below their directory. The code checks this by comparing strings, which lets siblings pass (C50_sibling_excluded); C21_excludes_below gives a sufficient condition on the configuration files."
  },
  {
   "property": "C22",
   "status": "proved",
   "theorems": [
    "Verif.Props.C22_no_partial_result",
    "Verif.Props.C22_no_deadlock",
    "Verif.Props.C22_terminates",
    "Verif.Props.C22_no_leak"
   ],
   "note": "Two goroutines and the timer as a step machine; accesses to timedOut are atomic in the model (they race in Go)."
  },
  {
   "property": "C23",
   "status": "proved",
   "theorems": [
    "Verif.Props.C23_linters",
    "Verif.Props.C23_known_names",
    "Verif.Props.C23_from_file",
    "Verif.Props.C23_from_file_known"
   ],
   "note": "The linters of a run are the group (uber1 by default) plus add minus remove, each once; unknown names and groups are errors; and the same starting from the configuration file. Rule names under ignores with an empty file list are not looked up by the code."
  },
  {
   "property": "C24",
   "status": "proved",
   "theorems": [
    "Verif.Props.C24_rules",
    "Verif.Props.C24_groups"
   ],
   "note": "The tables of docs/lint.md are transcribed in Verif/Spec/LintDoc.lean and compared with the linter tables of the code."
  },
  {
   "property": "C25",
   "status": "partial",
   "theorems": [
    "Verif.Props.C25_ignores_partial",
    "Verif.Props.C25_as_if_absent",
    "Verif.Props.C25_not_only"
   ],
   "note": "Ignored failures are absent for all rules; all others stay for the rules on single files. For rules that compare the files of a directory the second half is false (C25_not_only); C25_as_if_absent says what holds for all rules."
  },
  {
   "property": "C26",
   "status": "proved",
   "theorems": [
    "Verif.Props.C26_printed",
    "Verif.Props.C26_command",
    "Verif.Props.C26_generated_ignores",
    "Verif.Props.C26_absolute"
   ],
   "note": "For all rules, proto sets and configurations, with both kinds of file names. Assumes that the parser puts the given file name into positions and otherwise depends on the content only (Spec/Rename). That display paths lead to the files is proved for what discovery finds (C82_discovered), and C26_command states the claim for the commands run in the working directory."
  },
  {
   "property": "C27",
   "status": "proved",
   "theorems": [
    "Verif.Props.C27_iteration_order",
    "Verif.Props.C27_directory_order"
   ],
   "note": "Whole lint runs: every map iteration goes through an order oracle, and the directories may be listed in any order."
  },
  {
   "property": "C28",
   "status": "proved",
   "theorems": [
    "Verif.Props.C28_rules",
    "Verif.Props.C28_dropped",
    "Verif.Props.C28_message_fields_not_floats",
    "Verif.Props.C28_names_no_common",
    "Verif.Props.C28_names_no_data",
    "Verif.Props.C28_names_no_uuid",
    "Verif.Props.C28_package_no_keywords",
    "Verif.Props.C28_rpc_options_no_google_api_http",
    "Verif.Props.C28_service_names_no_plurals"
   ],
   "note": "For the rules that can be suppressed, what is reported is exactly the offending elements whose comment does not suppress the rule; C28_rules shows which rules these are. The rule on HTTP options needs grammatical files without such an option outside of an RPC, where it crashes."
  },
  {
   "property": "C29",
   "status": "proved",
   "theorems": [
    "Verif.Props.C29_enum_names_camel_case",
    "Verif.Props.C29_enum_names_capitalized",
    "Verif.Props.C29_enum_field_names_upper_snake_case",
    "Verif.Props.C29_enum_field_names_uppercase",
    "Verif.Props.C29_message_field_names_lower_snake_case",
    "Verif.Props.C29_message_field_names_lowercase",
    "Verif.Props.C29_oneof_names_lower_snake_case",
    "Verif.Props.C29_rpc_names_camel_case",
    "Verif.Props.C29_rpc_names_capitalized",
    "Verif.Props.C29_service_names_camel_case",
    "Verif.Props.C29_service_names_capitalized",
    "Verif.Props.C29_message_names_camel_case",
    "Verif.Props.C29_message_names_capitalized",
    "Verif.Props.C29_file_names_lower_snake_case",
    "Verif.Props.C29_package_lower_case",
    "Verif.Props.C29_package_lower_snake_case",
    "Verif.Props.C29_package_lower_snake_case_accepts",
    "Verif.Props.C29_everywhere",
    "Verif.Props.C29_not_in_groups"
   ],
   "note": "All naming rules; the two groups of theorems say where and that these are all elements in files without groups."
  },
  {
   "property": "C30",
   "status": "proved",
   "theorems": [
    "Verif.Props.C30_enum_field_prefixes",
    "Verif.Props.C30_enum_zero_values_invalid",
    "Verif.Props.C30_enum_field_prefixes_except_message",
    "Verif.Props.C30_enum_zero_values_invalid_except_message",
    "Verif.Props.C30_everywhere"
   ],
   "note": "All nesting depths; EXCEPT_MESSAGE variants on grammatical files."
  },
  {
   "property": "C31",
   "status": "proved",
   "theorems": [
    "Verif.Props.C31_packages_same_in_dir",
    "Verif.Props.C31_options_same_in_dir",
    "Verif.Props.C31_order"
   ],
   "note": "Packages and option values. The package rule leaves out files without a package; the option rules count a missing option as an empty value. Reports are on every file, and silence does not depend on the order."
  },
  {
   "property": "C32",
   "status": "proved",
   "theorems": [
    "Verif.Props.C32_unique",
    "Verif.Props.C32_unique_silent",
    "Verif.Props.C32_names_match",
    "Verif.Props.C32_in_same_file",
    "Verif.Props.C32_after_service",
    "Verif.Props.C32_only_in_file",
    "Verif.Props.C32_comments_except",
    "Verif.Props.C32_sentence_comments_except",
    "Verif.Props.C32_not_empty_except",
    "Verif.Props.C32_last_all",
    "Verif.Props.C32_named_all"
   ],
   "note": "All request/response type rules and the three rules that except these types, with exact places. The files are grammatical; among messages of the same name the last one counts, and blocks of extensions count as messages."
  },
  {
   "property": "C33",
   "status": "partial",
   "theorems": [
    "Verif.Props.C33_no_panic_partial",
    "Verif.Props.C33_http_crash",
    "Verif.Props.C33_not",
    "Verif.Props.C33_run_partial"
   ],
   "note": "Proved for 95 of 96 rules and for whole runs. The remaining rule crashes exactly when a file or service option begins with (.google.api.http): C33_http_crash, C33_not."
  },
  {
   "property": "C34",
   "status": "proved",
   "theorems": [
    "Verif.Props.C34_ends",
    "Verif.Props.C34_clean",
    "Verif.Props.C34_header",
    "Verif.Props.C34_indentation",
    "Verif.Props.C34_one_by_one"
   ],
   "note": "For every file the formatter accepts and every sort function. C34_clean assumes that names and comment lines have no line breaks inside (OneLine, true of the parser) and a clean header (C34_header: the configuration gives no other)."
  },
  {
   "property": "C35",
   "status": "partial",
   "theorems": [
    "Verif.Props.C35_layout",
    "Verif.Props.C35_duplicates",
    "Verif.Props.C35_kept_partial",
    "Verif.Props.C35_not"
   ],
   "note": "C35_layout is the whole printed file line by line; C35_kept_partial finds every declaration among the lines of the text. What fails is in C35_not: an option written {} is dropped without a failure."
  },
  {
   "property": "C36",
   "status": "partial",
   "theorems": [
    "Verif.Props.C36_fixed_point_partial",
    "Verif.Props.C36_distinct",
    "Verif.Props.C36_settled",
    "Verif.Props.C36_not",
    "Verif.Props.C36_fix_distinct",
    "Verif.Props.C36_fix_top",
    "Verif.Props.C36_fix_plain"
   ],
   "note": "Fixed point for every file whose sort function leaves sorted lists alone (C36_settled) or whose names are distinct (C36_distinct). C36_not: sort.Slice may swap options of one name each time, as it is not stable. With --fix: C36_fix_distinct (managed options may occur any number of times, the other names are distinct, the file has a package), C36_fix_top (a header is not printed twice), C36_fix_plain (format without --fix agrees). That the text of a second run is the text of the first, comments included, is C97_again_partial, C97_again_fix_partial and C97_again_headed_partial."
  },
  {
   "property": "C37",
   "status": "partial",
   "theorems": [
    "Verif.Props.C37_rewritten",
    "Verif.Props.C37_headed",
    "Verif.Props.C37_header",
    "Verif.Props.C37_header_silent",
    "Verif.Props.C37_uber2",
    "Verif.Props.C37_uber2_silent",
    "Verif.Props.C37_uber1_partial",
    "Verif.Props.C37_uber1_silent_partial",
    "Verif.Props.C37_kept",
    "Verif.Props.C37_comments",
    "Verif.Props.C37_not_kept",
    "Verif.Props.C37_dropped",
    "Verif.Props.C37_no_package",
    "Verif.Props.C37_not_prefix"
   ],
   "note": "C37_rewritten: --fix prints the file with the managed options replaced. For uber2 that file satisfies every option rule (C37_uber2_silent), for uber1 if no java_package_prefix is configured. Violations: C37_not_prefix (uber1 with a prefix), C37_not_kept (outside uber2 csharp_namespace, objc_class_prefix and php_namespace are dropped)."
  },
  {
   "property": "C38",
   "status": "proved",
   "theorems": [
    "Verif.Props.C38_read_only",
    "Verif.Props.C38_flags",
    "Verif.Props.C38_exit_zero",
    "Verif.Props.C38_written",
    "Verif.Props.C38_changed",
    "Verif.Props.C38_overwritten",
    "Verif.Props.C38_again",
    "Verif.Props.C38_exit_255",
    "Verif.Props.C38_prints",
    "Verif.Props.C38_distinct",
    "Verif.Props.C38_clean",
    "Verif.Props.C38_settled"
   ],
   "note": "Command run over any disk, output, flags, arguments, map order and any compiler, parser, diff and encoder (Exec.Host). Read-only without --overwrite; with it exactly the concerned files whose formatted text differs are written, once each, with that text; exit zero iff clean; a second run after a stable format writes nothing. Hypotheses: the output takes everything (Prints) where output is claimed; no file listed twice (Distinct), which C38_distinct derives from discovery. Which files are concerned is the code's own prefix test, see C61. C38_clean: on formatted files the command with --overwrite, --lint or --diff ends well, prints nothing and writes nothing. C38_settled: so it does after an overwriting run that ended well, for regular files (C98) that the parser reads as readWithComments does, so that stability is no assumption there."
  },
  {
   "property": "C39",
   "status": "proved",
   "theorems": [
    "Verif.Props.C39_refused",
    "Verif.Props.C39_only",
    "Verif.Props.C39_kept",
    "Verif.Props.C39_written"
   ],
   "note": "Any unfit path (empty, no directory, file with content) makes create fail with nothing changed; only requested files are ever written, also on failure half way; files with content keep it; on success every path has the text of the template. Symbolic links are not modelled."
  },
  {
   "property": "C40",
   "status": "partial",
   "theorems": [
    "Verif.Props.C40_explicit",
    "Verif.Props.C40_config",
    "Verif.Props.C40_order",
    "Verif.Props.C40_unique",
    "Verif.Props.C40_partial",
    "Verif.Props.C40_not"
   ],
   "note": "The explicit package is used; the result is the same for all map orders; the package is the documented one unless a create.packages directory is a string prefix of the path without containing it (C40_not: idl/code captures idl/codegen)."
  },
  {
   "property": "C41",
   "status": "partial",
   "theorems": [
    "Verif.Props.C41_format_fix",
    "Verif.Props.C41_header",
    "Verif.Props.C41_uber2",
    "Verif.Props.C41_uber2_silent",
    "Verif.Props.C41_uber1_partial",
    "Verif.Props.C41_uber1_silent_partial",
    "Verif.Props.C41_not_prefix",
    "Verif.Props.C41_uber2_parsed",
    "Verif.Props.C41_uber1_parsed_partial"
   ],
   "note": "The created text is, up to the final newline, what format --fix writes; under uber2 all option rules are silent; under uber1 only without java_package_prefix (C41_not_prefix). C41_uber2_parsed and C41_uber1_parsed_partial say the same of files as parsed, with positions."
  },
  {
   "property": "C42",
   "status": "proved",
   "theorems": [
    "Verif.Props.C42_terminates",
    "Verif.Props.C42_bounded",
    "Verif.Props.C42_returns",
    "Verif.Props.C42_same",
    "Verif.Props.C42_outcome",
    "Verif.Props.C42_error_order"
   ],
   "note": "Compile as a step machine of the main goroutine, the semaphore and one goroutine per protoc command: every schedule ends, never more than NumCPU runs at once, the verdict is the same for all schedules and map orders; only the order of the joined error texts depends on the schedule (C42_error_order)."
  },
  {
   "property": "C43",
   "status": "proved",
   "theorems": [
    "Verif.Props.C43_compile",
    "Verif.Props.C43_dry_run",
    "Verif.Props.C43_while_running"
   ],
   "note": "Temporary descriptor-set files are gone when Compile or the dry run returns, on every path; while protoc runs each exists. Removal is taken to succeed."
  },
  {
   "property": "C44",
   "status": "proved",
   "theorems": [
    "Verif.Props.C44_includes",
    "Verif.Props.C44_added"
   ],
   "note": "The exact include list for all configurations and directories, and the only error. For directories below the configuration the added directory is never listed already."
  },
  {
   "property": "C45",
   "status": "partial",
   "theorems": [
    "Verif.Props.C45_modifiers_partial",
    "Verif.Props.C45_others",
    "Verif.Props.C45_not_sorted",
    "Verif.Props.C45_not_once"
   ],
   "note": "All modifiers are exactly those of the files outside the directory, the well-known types with their Go packages and the configured extra ones; those for files are distinct and never for the own directory. C45_not_sorted: the order is that of the map loops. C45_not_once: an extra modifier for a file of the set is passed in addition."
  },
  {
   "property": "C46",
   "status": "partial",
   "theorems": [
    "Verif.Props.C46_line",
    "Verif.Props.C46_output",
    "Verif.Props.C46_position",
    "Verif.Props.C46_failed_run",
    "Verif.Props.C46_success_partial",
    "Verif.Props.C46_not",
    "Verif.Props.C46_reading"
   ],
   "note": "Each output line becomes a failure except for the listed ignorable ones, and the failure has the file, place and message that the line means (C46_reading, against a table of the kinds of lines); success means every protoc run ended with status 0 and only ignorable lines. C46_not: a signal during a run makes Compile end in success although protoc was killed."
  },
  {
   "property": "C47",
   "status": "partial",
   "theorems": [
    "Verif.Props.C47_exclusive",
    "Verif.Props.C47_one_writer",
    "Verif.Props.C47_verified",
    "Verif.Props.C47_settled",
    "Verif.Props.C47_complete",
    "Verif.Props.C47_repair_partial",
    "Verif.Props.C47_not_stuck",
    "Verif.Props.C47_not_repaired",
    "Verif.Props.C47_not_exclusive"
   ],
   "note": "All interleavings and crashes of any number of processes. The binary a process gets had answered under the lock; without deletions there is one writer at a time, accepted caches never change, complete downloads stay complete, and a cache without an accepted binary is repaired. Missing and shown false: a crash after the binary was written leaves files missing for ever (C47_not_repaired); deleting the cache lets two processes hold a lock (C47_not_exclusive)."
  },
  {
   "property": "C48",
   "status": "partial",
   "theorems": [
    "Verif.Props.C48_below_partial",
    "Verif.Props.C48_not"
   ],
   "note": "Proved for archives whose entry names have no '..' component; C48_not shows that other archives are written outside the directory."
  },
  {
   "property": "C49",
   "status": "partial",
   "theorems": [
    "Verif.Props.C49_override",
    "Verif.Props.C49_url",
    "Verif.Props.C49_unsupported",
    "Verif.Props.C49_data",
    "Verif.Props.C49_directory",
    "Verif.Props.C49_one_root",
    "Verif.Props.C49_unsupported_directory",
    "Verif.Props.C49_depends",
    "Verif.Props.C49_distinct_partial",
    "Verif.Props.C49_not_distinct",
    "Verif.Props.C49_not_platform"
   ],
   "note": "URL, override, errors, what is downloaded, exact directory and what it depends on for all versions and platforms. Different names have different, disjoint directories if they are path components; C49_not_distinct shows versions such as ./3.8.0 that are not. With a given cache directory all platforms share a directory (C49_not_platform). C49_data shows that with a given URL a status other than 200 is no error at that point and yields an empty archive."
  },
  {
   "property": "C50",
   "status": "proved",
   "theorems": [
    "Verif.Props.C50_accepted_iff",
    "Verif.Props.C50_paths",
    "Verif.Props.C50_plugins_rules",
    "Verif.Props.C50_header",
    "Verif.Props.C50_rest",
    "Verif.Props.C50_sibling_excluded",
    "Verif.Props.C50_excludes_below"
   ],
   "note": "Acceptable states the string comparison that the code makes for excludes; C50_sibling_excluded shows it accepts a path outside, C50_excludes_below when it does not."
  },
  {
   "property": "C51",
   "status": "proved",
   "theorems": [
    "Verif.Props.C51_flags",
    "Verif.Props.C51_refused",
    "Verif.Props.C51_address",
    "Verif.Props.C51_other_network",
    "Verif.Props.C51_method",
    "Verif.Props.C51_service",
    "Verif.Props.C51_headers",
    "Verif.Props.C51_not_package"
   ],
   "note": "checkFlags, getNetworkAddress, getServiceForMethod and getServiceInfo are characterised by equivalences. A file without package makes the search fail even if the service exists (C51_not_package)."
  },
  {
   "property": "C52",
   "status": "partial",
   "theorems": [
    "Verif.Props.C52_command",
    "Verif.Props.C52_no_runner",
    "Verif.Props.C52_other_system",
    "Verif.Props.C52_codes",
    "Verif.Props.C52_zero",
    "Verif.Props.C52_not_once"
   ],
   "note": "Exit codes are proved for every command, parsed command line and system; the text of a command's error is printed exactly once. Refuted part: what is wrong with a command line is printed twice (C52_not_once). cobra and pflag parsing is a parameter."
  },
  {
   "property": "C53",
   "status": "proved",
   "theorems": [
    "Verif.Props.C53_diff",
    "Verif.Props.C53_unknown",
    "Verif.Props.C53_malformed"
   ],
   "note": "All pairs of documented groups, in any case, any map order. Unknown groups and malformed arguments too. The message for malformed arguments names the wrong separator."
  },
  {
   "property": "C54",
   "status": "proved",
   "theorems": [
    "Verif.Props.C54_own_configuration"
   ],
   "note": "Stated for successful discovery without configuration data."
  },
  {
   "property": "C55",
   "status": "proved",
   "theorems": [
    "Verif.Props.C55_enums_have_comments",
    "Verif.Props.C55_enum_fields_have_comments",
    "Verif.Props.C55_messages_have_comments",
    "Verif.Props.C55_message_fields_have_comments",
    "Verif.Props.C55_services_have_comments",
    "Verif.Props.C55_rpcs_have_comments",
    "Verif.Props.C55_enums_have_sentence_comments",
    "Verif.Props.C55_enum_fields_have_sentence_comments",
    "Verif.Props.C55_message_fields_have_sentence_comments",
    "Verif.Props.C55_services_have_sentence_comments",
    "Verif.Props.C55_rpcs_have_sentence_comments",
    "Verif.Props.C55_comments_no_c_style",
    "Verif.Props.C55_comments_no_inline"
   ],
   "note": "All comment rules."
  },
  {
   "property": "C56",
   "status": "proved",
   "theorems": [
    "Verif.Props.C56_message_field_names_filename",
    "Verif.Props.C56_message_field_names_filepath",
    "Verif.Props.C56_message_field_names_no_descriptor",
    "Verif.Props.C56_message_fields_duration",
    "Verif.Props.C56_message_fields_time",
    "Verif.Props.C56_wkt_duration_suffix",
    "Verif.Props.C56_wkt_timestamp_suffix",
    "Verif.Props.C56_message_fields_no_json_name",
    "Verif.Props.C56_everywhere"
   ],
   "note": "All field rules."
  },
  {
   "property": "C57",
   "status": "proved",
   "theorems": [
    "Verif.Props.C57_enums_no_allow_alias",
    "Verif.Props.C57_fields_not_reserved",
    "Verif.Props.C57_file_header",
    "Verif.Props.C57_gogo_not_imported",
    "Verif.Props.C57_imports_not_public",
    "Verif.Props.C57_imports_not_weak",
    "Verif.Props.C57_wkt_directly_imported",
    "Verif.Props.C57_rpcs_no_streaming",
    "Verif.Props.C57_service_names_api_suffix",
    "Verif.Props.C57_everywhere"
   ],
   "note": "One theorem per rule."
  },
  {
   "property": "C58",
   "status": "proved",
   "theorems": [
    "Verif.Props.C58_required",
    "Verif.Props.C58_unset",
    "Verif.Props.C58_go_package_not_long_form",
    "Verif.Props.C58_prescribed",
    "Verif.Props.C58_uber1_rules",
    "Verif.Props.C58_uber2_rules",
    "Verif.Props.C58_uber1_together",
    "Verif.Props.C58_uber2_together",
    "Verif.Props.C58_uber1_same_in_dir",
    "Verif.Props.C58_uber2_same_in_dir"
   ],
   "note": "Tables of rules with the option each is about. C58_uber1_rules/C58_uber2_rules list all the option rules of the groups; the _together and _same_in_dir theorems show that one set of options meets all of them. C58_uber1_rules/C58_uber2_rules list all the option rules of the groups; the _together and _same_in_dir theorems show that one set of options meets all of them."
  },
  {
   "property": "C59",
   "status": "proved",
   "theorems": [
    "Verif.Props.C59_package_is_declared",
    "Verif.Props.C59_package_versioned",
    "Verif.Props.C59_syntax_proto3",
    "Verif.Props.C59_service_names_match_file_name"
   ],
   "note": "One theorem per rule."
  },
  {
   "property": "C60",
   "status": "proved",
   "theorems": [
    "Verif.Props.C60_go_package",
    "Verif.Props.C60_go_package_versioned",
    "Verif.Props.C60_go_package_unversioned",
    "Verif.Props.C60_java_package",
    "Verif.Props.C60_csharp_namespace",
    "Verif.Props.C60_csharp_namespace_beta",
    "Verif.Props.C60_csharp_namespace_wraps",
    "Verif.Props.C60_php_namespace",
    "Verif.Props.C60_php_namespace_beta",
    "Verif.Props.C60_objc_class_prefix",
    "Verif.Props.C60_objc_class_prefix_versioned",
    "Verif.Props.C60_objc_class_prefix_ok",
    "Verif.Props.C60_java_outer_classname"
   ],
   "note": "For all packages made of identifiers; the C# and PHP values of versions of 2^63 and above are wrong (witness)."
  },
  {
   "property": "C61",
   "status": "partial",
   "theorems": [
    "Verif.Props.C61_concerns_partial",
    "Verif.Props.C61_below_partial",
    "Verif.Props.C61_not"
   ],
   "note": "False as stated (C61_not: format --overwrite on a also rewrites ab/y.proto, files a lists it). Proved: the exact set of files (below the directory, or below a neighbour whose name starts the same), and the full property if the directory has its own configuration or none above it does. Missing: the property itself, which the code violates."
  },
  {
   "property": "C62",
   "status": "partial",
   "theorems": [
    "Verif.Props.C62_lint",
    "Verif.Props.C62_unprintable",
    "Verif.Props.C62_exit_partial",
    "Verif.Props.C62_not_single"
   ],
   "note": "Proved what is printed and the exit code for every run; exit 255 iff something printed proved for directories with the default error format or JSON; false for single files (C62_not_single)."
  },
  {
   "property": "C63",
   "status": "proved",
   "theorems": [
    "Verif.Props.C63_files"
   ],
   "note": "Any proto set and map order; given a single file the whole directory is listed. Hypothesis: display paths are not empty."
  },
  {
   "property": "C64",
   "status": "proved",
   "theorems": [
    "Verif.Props.C64_list_linters",
    "Verif.Props.C64_list_all_linters",
    "Verif.Props.C64_list_lint_group",
    "Verif.Props.C64_list_all_lint_groups"
   ],
   "note": "All configurations with known names, any map order and any sort.Slice; the layout of the table and the descriptions are in C108."
  },
  {
   "property": "C65",
   "status": "proved",
   "theorems": [
    "Verif.Props.C65_compiles_first",
    "Verif.Props.C65_sequence",
    "Verif.Props.C65_disabled",
    "Verif.Props.C65_formatted",
    "Verif.Props.C65_linted",
    "Verif.Props.C65_format_first"
   ],
   "note": "allCmd models All step by step. C65_formatted asks that the paths are distinct and the plugins do not write to the formatted files; C65_sequence that what compiled still compiles after generating."
  },
  {
   "property": "C66",
   "status": "partial",
   "theorems": [
    "Verif.Props.C66_descriptor_set",
    "Verif.Props.C66_git",
    "Verif.Props.C66_exit",
    "Verif.Props.C66_compatible",
    "Verif.Props.C66_files_partial",
    "Verif.Props.C66_leaks",
    "Verif.Props.C66_not"
   ],
   "note": "Output, exit code and restored files are proved for every run in which git, if it is used, ends well (C66_files_partial covers every other way to end). False when git fails: the temporary directory is left behind (C66_not)."
  },
  {
   "property": "C67",
   "status": "proved",
   "theorems": [
    "Verif.Props.C67_flags",
    "Verif.Props.C67_only",
    "Verif.Props.C67_compiles_first",
    "Verif.Props.C67_written",
    "Verif.Props.C67_success",
    "Verif.Props.C67_break_descriptor_set"
   ],
   "note": "For all flags, sets and failures of writing; the encoders are parameters. C67_written asks that equal checksums mean equal files."
  },
  {
   "property": "C68",
   "status": "proved",
   "theorems": [
    "Verif.Props.C68_read_only",
    "Verif.Props.C68_packages",
    "Verif.Props.C68_deps",
    "Verif.Props.C68_importers",
    "Verif.Props.C68_unknown",
    "Verif.Props.C68_no_name"
   ],
   "note": "For every compiled schema and iteration order."
  },
  {
   "property": "C69",
   "status": "partial",
   "theorems": [
    "Verif.Props.C69_same_directory_partial",
    "Verif.Props.C69_not_outside",
    "Verif.Props.C69_not_inside"
   ],
   "note": "Proved for directories inside the working directory given without leaving it. False otherwise: a sibling directory whose name starts the same is accepted (C69_not_outside), and leaving and entering the working directory again compares the wrong directory (C69_not_inside)."
  },
  {
   "property": "C70",
   "status": "proved",
   "theorems": [
    "Verif.Props.C70_as_direct",
    "Verif.Props.C70_round_trip",
    "Verif.Props.C70_not_json"
   ],
   "note": "Decoding is assumed to undo encoding, and checksums and encodings to tell files apart. With --json the written file cannot be read back (C70_not_json)."
  },
  {
   "property": "C71",
   "status": "proved",
   "theorems": [
    "Verif.Props.C71_kept",
    "Verif.Props.C71_only",
    "Verif.Props.C71_written"
   ],
   "note": "For all arguments and failures. Directories made on the way are not modelled."
  },
  {
   "property": "C72",
   "status": "partial",
   "theorems": [
    "Verif.Props.C72_partial",
    "Verif.Props.C72_not"
   ],
   "note": "Holds unless an include directory is a string prefix of the directory without containing it (C72_not: /w/inc and /w/incl)."
  },
  {
   "property": "C73",
   "status": "proved",
   "theorems": [
    "Verif.Props.C73_commands",
    "Verif.Props.C73_generated"
   ],
   "note": "The complete command list: directories, jobs, include list, output arguments and files. 'Below' is the code's string prefix in C73_commands; C73_generated shows that every directory really below is covered."
  },
  {
   "property": "C74",
   "status": "proved",
   "theorems": [
    "Verif.Props.C74_outputs",
    "Verif.Props.C74_directories"
   ],
   "note": "For configurations whose output paths are absolute and cleaned and whose suffix has no slash."
  },
  {
   "property": "C75",
   "status": "proved",
   "theorems": [
    "Verif.Props.C75_own",
    "Verif.Props.C75_nothing_downloaded",
    "Verif.Props.C75_downloaded",
    "Verif.Props.C75_not"
   ],
   "note": "When an own protoc is accepted, which paths are used. C75_not shows the panic when google/protobuf cannot be looked at."
  },
  {
   "property": "C76",
   "status": "proved",
   "theorems": [
    "Verif.Props.C76_root",
    "Verif.Props.C76_exactly",
    "Verif.Props.C76_no_root",
    "Verif.Props.C76_everything",
    "Verif.Props.C76_not_only"
   ],
   "note": "Exactly the files in the root are removed, and all caches and lock files are there. C76_not_only shows that a given cache directory is deleted with everything else in it."
  },
  {
   "property": "C77",
   "status": "proved",
   "theorems": [
    "Verif.Props.C77_events",
    "Verif.Props.C77_files",
    "Verif.Props.C77_result",
    "Verif.Props.C77_success",
    "Verif.Props.C77_called",
    "Verif.Props.C77_unknown",
    "Verif.Props.C77_credentials",
    "Verif.Props.C77_source"
   ],
   "note": "The grpcurl library, TLS files and time.ParseDuration are parameters; writes of responses succeed. C77_called is for files that all have packages (see C51_not_package)."
  },
  {
   "property": "C78",
   "status": "proved",
   "theorems": [
    "Verif.Props.C78_settings",
    "Verif.Props.C78_fails"
   ],
   "note": "For all flags and environments."
  },
  {
   "property": "C79",
   "status": "partial",
   "theorems": [
    "Verif.Props.C79_default_partial",
    "Verif.Props.C79_failed",
    "Verif.Props.C79_not"
   ],
   "note": "Refuted as documented (C79_not): with PROTOTOOL_CACHE_PATH set, the custom cache is removed. Without the variable exactly the default cache is removed (C79_default_partial), and nothing if the command fails (C79_failed)."
  },
  {
   "property": "C80",
   "status": "proved",
   "theorems": [
    "Verif.Props.C80_only_reads"
   ],
   "note": "For every system, command line, flag value and outcome, by non-interference of each command with the files."
  },
  {
   "property": "C81",
   "status": "proved",
   "theorems": [
    "Verif.Props.C81_refused",
    "Verif.Props.C81_accepted",
    "Verif.Props.C81_arguments",
    "Verif.Props.C81_default",
    "Verif.Props.C81_last",
    "Verif.Props.C81_named",
    "Verif.Props.C81_headers",
    "Verif.Props.C81_distinct",
    "Verif.Props.C81_documented",
    "Verif.Props.C81_words"
   ],
   "note": "For all lists of flags that fit their types; the tables of flags and words are checked wholly."
  },
  {
   "property": "C82",
   "status": "proved",
   "theorems": [
    "Verif.Props.C82_discovered",
    "Verif.Props.C82_names",
    "Verif.Props.C82_rule"
   ],
   "note": "For whole runs and for each rule. Messages are not compared since some mention file names. Same assumption on the parser as C26. C82_discovered: display paths of discovered files lead from the working directory to the files."
  },
  {
   "property": "C83",
   "status": "proved",
   "theorems": [
    "Verif.Props.C83_no_files_left",
    "Verif.Props.C83_renamed",
    "Verif.Props.C83_unexpected",
    "Verif.Props.C83_compares",
    "Verif.Props.C83_diff",
    "Verif.Props.C83_made_by_diff",
    "Verif.Props.C83_lint"
   ],
   "note": "The temporary files are gone on every path if they were new. diff -u gets two files with the two texts; only the names in the first two lines of its output are replaced; fewer than two line breaks are an error. Command level: exactly the changed files are shown, with exit code 0 or 255. The program diff and the temporary files are parameters. For --lint the display paths must lead to the files, which C82_discovered shows for files found by discovery."
  },
  {
   "property": "C84",
   "status": "proved",
   "theorems": [
    "Verif.Props.C84_settings",
    "Verif.Props.C84_uncommented",
    "Verif.Props.C84_examples",
    "Verif.Props.C84_examples_refused",
    "Verif.Props.C84_examples_refused_still",
    "Verif.Props.C84_examples_accepted",
    "Verif.Props.C84_config",
    "Verif.Props.C84_init"
   ],
   "note": "The two templates are modelled line by line with their placeholders and the HTML escaping of html/template; lines that are not comments are compared for every plain version (C84_settings), every line of the uncommented form is that of the documented form without its marker (C84_uncommented), and the file that config init leaves is read back through the model of the configuration (C84_config, C84_init). Assumed of the YAML reader: it skips comment lines and reads a text of these four lines. The uncommented form itself is not a valid configuration (it sets both path and content of the file header, as its comments say, and one linter both as added and removed)."
  },
  {
   "property": "C85",
   "status": "proved",
   "theorems": [
    "Verif.Props.C85_accepted",
    "Verif.Props.C85_compile",
    "Verif.Props.C85_compile_files",
    "Verif.Props.C85_generate",
    "Verif.Props.C85_failures",
    "Verif.Props.C85_dry_run"
   ],
   "note": "The commands of internal/exec are run on the model of internal/protoc (Uses): the environment, the temporary files and protoc itself are functions of the files. C85_compile is an equivalence; C85_accepted covers every command that compiles first; C85_failures gives the output and status if protoc objects; C85_dry_run compares the printed commands with those run. Signals are excluded (Undisturbed), see C46_not."
  },
  {
   "property": "C86",
   "status": "partial",
   "theorems": [
    "Verif.Props.C86_generate",
    "Verif.Props.C86_all",
    "Verif.Props.C86_create",
    "Verif.Props.C86_discovery",
    "Verif.Props.C86_files",
    "Verif.Props.C86_compile",
    "Verif.Props.C86_lint",
    "Verif.Props.C86_descriptor_set",
    "Verif.Props.C86_break_descriptor_set",
    "Verif.Props.C86_inspect_packages",
    "Verif.Props.C86_inspect_deps",
    "Verif.Props.C86_inspect_importers",
    "Verif.Props.C86_break_check",
    "Verif.Props.C86_system",
    "Verif.Props.C86_format",
    "Verif.Props.C86_format_directory",
    "Verif.Props.C86_format_order_not",
    "Verif.Props.C86_dry_run_order_not",
    "Verif.Props.C86_grpc_partial",
    "Verif.Props.C86_grpc_not"
   ],
   "note": "Proved for files, compile, generate, create, lint with every flag, descriptor-set, break descriptor-set, break check, the inspections, and for format when it goes through one directory: same files, same text, same code (errors other than exit codes may differ in their text). C86_system derives the hypothesis from discovery and the compiler model with two map orders, two schedules and two sets of temporary names. It is false of format over several directories and of compile --dry-run: the files or commands are printed in the order of a map (C86_format_order_not, C86_dry_run_order_not); C86_format and C86_all prove for format in every mode and for all that the files left, the code and the text for each file are the same, and only the order differs (for all, only when a file cannot be formatted). It is false of grpc: a file without package in another directory is an error only if its directory is looked at first (C86_grpc_not); C86_grpc_partial proves it when all files have packages and the server answers alike whichever set with the service is used."
  },
  {
   "property": "C87",
   "status": "proved",
   "theorems": [
    "Verif.Props.C87_fixed_point_fix",
    "Verif.Props.C87_read",
    "Verif.Props.C87_read_fix",
    "Verif.Props.C87_header",
    "Verif.Props.C87_same",
    "Verif.Props.C87_fixed_point",
    "Verif.Props.C87_create",
    "Verif.Props.C87_not"
   ],
   "note": "C87_read: without --fix, if the formatter reports nothing, the text reads (tokensOf, readFile: an independent lexer and reader for the grammar of protobuf) as the declarations of the file without comments, in the order of the formatter. C87_same says what that order keeps: syntax, package, options and imports up to order, all other declarations in order. C87_read_fix: with --fix the same for the file with the managed options replaced; C87_header: a header of the configuration that prototool comments is made of comments. C87_create: the text create writes reads as syntax, package and options. C87_fixed_point: formatting what is read from a text without comments gives the text again. FileFits restricts to names, values and labels that a file can have. Outside it: the label optional of a proto3 field is dropped (C87_not), an option with the value {} is dropped (C35_not), and a quote in the name of the file breaks java_outer_classname (example). Comments are the subject of C35, not of this property. C87_fixed_point_fix: so with --fix."
  },
  {
   "property": "C88",
   "status": "proved",
   "theorems": [
    "Verif.Props.C88_filename",
    "Verif.Props.C88_filepath",
    "Verif.Props.C88_replaced",
    "Verif.Props.C88_filename_followed",
    "Verif.Props.C88_filepath_followed",
    "Verif.Props.C88_enum_field_prefixes",
    "Verif.Props.C88_enum_field_prefixes_followed",
    "Verif.Props.C88_enum_field_prefixes_except_message",
    "Verif.Props.C88_enum_field_prefixes_except_message_followed",
    "Verif.Props.C88_enum_zero_values",
    "Verif.Props.C88_enum_zero_values_followed",
    "Verif.Props.C88_enum_zero_values_except_message",
    "Verif.Props.C88_enum_zero_values_except_message_followed",
    "Verif.Props.C88_names_match",
    "Verif.Props.C88_names_match_followed",
    "Verif.Props.C88_enums_have_comments",
    "Verif.Props.C88_enum_fields_have_comments",
    "Verif.Props.C88_messages_have_comments",
    "Verif.Props.C88_message_fields_have_comments",
    "Verif.Props.C88_services_have_comments",
    "Verif.Props.C88_rpcs_have_comments",
    "Verif.Props.C88_comment_followed",
    "Verif.Props.C88_options",
    "Verif.Props.C88_options_followed",
    "Verif.Props.C88_service_file",
    "Verif.Props.C88_service_file_followed",
    "Verif.Props.C88_api_suffix",
    "Verif.Props.C88_api_suffix_followed",
    "Verif.Props.C88_reserved"
   ],
   "note": "Places and texts of all reports of these rules (Says), and silence on files that follow the proposals (CleanOn); the replacement of file_name and file_path is shown to leave none behind. The names and values proposed are those of C15, C30, C58 and C60. Texts of the other rules are not claimed."
  },
  {
   "property": "C89",
   "status": "partial",
   "theorems": [
    "Verif.Props.C89_comments_partial",
    "Verif.Props.C89_between_partial",
    "Verif.Props.C89_fix_partial",
    "Verif.Props.C89_not"
   ],
   "note": "The lexer of C87 can keep comments (commentsOf). C89_comments_partial: for a file that the grammar allows, the comments found in the formatted text are exactly those of the declarations in the order of the formatter, a permutation of the comments of the file. C89_between_partial: wherever the file is cut between two top-level declarations, the text can be cut so that each side has its declarations and its comments. C89_fix_partial: with --fix the header takes the place of the comments at the top and all other comments of what stays are kept. Partial because the code loses comments by themselves in the body of an RPC (C89_not); comments in the brackets of fields and enum values are excluded as well, and with a single option on the line the printer does not look at them."
  },
  {
   "property": "C90",
   "status": "partial",
   "theorems": [
    "Verif.Props.C90_same_partial",
    "Verif.Props.C90_no_more_partial",
    "Verif.Props.C90_not_trailing",
    "Verif.Props.C90_not_line",
    "Verif.Props.C90_read_partial",
    "Verif.Props.C90_no_c_style"
   ],
   "note": "C90_same_partial: for what is read back from the formatted texts of the files of a directory (the reader of C87), each of the 73 rules that do not look at comments reports as many failures as for the files before. C90_read_partial: for what is read back with comments (the reader of C97), every rule except COMMENTS_NO_C_STYLE and FILE_HEADER reports at most as many; C90_no_more_partial is the same for any files related in this way. C90_no_c_style: COMMENTS_NO_C_STYLE reports nothing after formatting. Partial because the code violates the property in two ways: a space at the end of a comment line that a rule asks for is cut off (C90_not_trailing), so the seven rules that look for the name at the beginning of a comment need lines without white space at their ends; and a message on the line of its RPC comes to be above it (C90_not_line), so that rule needs messages and RPCs on lines of their own. C90_read_partial also needs what C97 needs: no comments where the formatter drops them and comments behind declarations of at most one line. FILE_HEADER, which looks at the text, is left out."
  },
  {
   "property": "C91",
   "status": "proved",
   "theorems": [
    "Verif.Props.C91_group",
    "Verif.Props.C91_run",
    "Verif.Props.C91_created",
    "Verif.Props.C91_command",
    "Verif.Props.C91_default"
   ],
   "note": "For every group the rules are silent about created files exactly if Pleases holds (C91_group); from this a run with any excludes and ignores (C91_run) and the command (C91_command) report nothing. C91_created derives what a created file is from its text by C87. The files of a directory share package and configuration; that the parser finds what the text says, and attaches the header to no declaration, is assumed."
  },
  {
   "property": "C92",
   "status": "proved",
   "theorems": [
    "Verif.Props.C92_about",
    "Verif.Props.C92_run",
    "Verif.Props.C92_alone",
    "Verif.Props.C92_narrower",
    "Verif.Props.C92_lint",
    "Verif.Props.C92_format"
   ],
   "note": "C92_run and C92_alone are about runs over any two sets of files with a directory or a file in common; C92_lint and C92_format are about the commands, with discovery. Directories without any configuration file above them are covered if they are the same (a file and its directory)."
  },
  {
   "property": "C93",
   "status": "partial",
   "theorems": [
    "Verif.Props.C93_reads",
    "Verif.Props.C93_bytes",
    "Verif.Props.C93_descriptors",
    "Verif.Props.C93_unambiguous",
    "Verif.Props.C93_accepted_partial",
    "Verif.Props.C93_accepted_not",
    "Verif.Props.C93_new_data",
    "Verif.Props.C93_names_partial",
    "Verif.Props.C93_names_not",
    "Verif.Props.C93_calls"
   ],
   "note": "Reading is defined in Spec/Wire.lean and Spec/Binary.lean, apart from the code. Values read the same in both directions (C93_reads, C93_bytes, C93_new_data). Missing because the code does not ensure it: data is rejected after a required field was added, which break check passes (C93_accepted_not; C93_accepted_partial without added required fields), and names of removed enum aliases cannot be read (C93_names_not; C93_names_partial without aliases). JSON names set by the json_name option, default values and extensions are not part of the schemas that break check compares, so they are outside the model."
  },
  {
   "property": "C94",
   "status": "proved",
   "theorems": [
    "Verif.Props.C94_imports",
    "Verif.Props.C94_uses",
    "Verif.Props.C94_reported",
    "Verif.Props.C94_history"
   ],
   "note": "Proved about descriptor sets, end to end through reflection and the check. UsesImported is what protoc ensures: a file uses only what it imports, directly or by way of (public) imports."
  },
  {
   "property": "C95",
   "status": "proved",
   "theorems": [
    "Verif.Props.C95_compile",
    "Verif.Props.C95_failures",
    "Verif.Props.C95_dry_run",
    "Verif.Props.C95_generate",
    "Verif.Props.C95_files",
    "Verif.Props.C95_format_diff",
    "Verif.Props.C95_format_lint",
    "Verif.Props.C95_format_overwrite",
    "Verif.Props.C95_format_prints",
    "Verif.Props.C95_lint",
    "Verif.Props.C95_lint_lists",
    "Verif.Props.C95_generate_ignores",
    "Verif.Props.C95_break_descriptor_set_path",
    "Verif.Props.C95_break_git_branch",
    "Verif.Props.C95_all",
    "Verif.Props.C95_descriptor_set",
    "Verif.Props.C95_break_descriptor_set",
    "Verif.Props.C95_inspect",
    "Verif.Props.C95_init",
    "Verif.Props.C95_create",
    "Verif.Props.C95_grpc",
    "Verif.Props.C95_cache_update",
    "Verif.Props.C95_own_protoc",
    "Verif.Props.C95_version"
   ],
   "note": "Theorems about the whole program as started with a command line: parsing of the flags, the settings that the runner and the downloader get from them, and the operation, with the results of C38, C62, C63, C65, C71, C77, C80, C83, C85 carried over. Printing of help texts, shell completions and the profiler is not modelled."
  },
  {
   "property": "C96",
   "status": "proved",
   "theorems": [
    "Verif.Props.C96_failure",
    "Verif.Props.C96_lint",
    "Verif.Props.C96_compile",
    "Verif.Props.C96_break",
    "Verif.Props.C96_version",
    "Verif.Props.C96_text",
    "Verif.Props.C96_text_ambiguous"
   ],
   "note": "The encoder of encoding/json is modelled in Go/Json.lean, the reader of Spec/Json.lean follows RFC 8259 and does not refer to it. C96_text_ambiguous shows that the text format needs its conditions."
  },
  {
   "property": "C97",
   "status": "partial",
   "theorems": [
    "Verif.Props.C97_attached_partial",
    "Verif.Props.C97_fix_partial",
    "Verif.Props.C97_again_partial",
    "Verif.Props.C97_not",
    "Verif.Props.C97_again_fix_partial",
    "Verif.Props.C97_header",
    "Verif.Props.C97_headed_partial",
    "Verif.Props.C97_again_headed_partial",
    "Verif.Props.C97_header_lost",
    "Verif.Props.C97_not_again"
   ],
   "note": "readWithComments (Spec/Attached) is a reader that knows the lines of tokens and gives each comment to the declaration below it or in front of it, or to none. C97_attached_partial: reading the formatted text gives the declarations of the file with their comments, in the order of the formatter. C97_fix_partial: with --fix and no header, the file with the managed options replaced. C97_headed_partial: with a header, the header stands in place of the comments at the top; C97_header: a header from the configuration is such a header. C97_again_partial, C97_again_fix_partial, C97_again_headed_partial: reading the text and formatting it again gives the same text. Partial because of a comment of several lines behind a statement the formatter prints all lines but the first below it, where they belong to what follows (C97_not) and where a second run puts an empty line (C97_not_again), because comments by themselves in the body of an RPC are lost (C89_not), because the comment above the syntax statement is set off by an empty line (setOff), and because a second run of --fix with a header takes that one for a comment at the top and replaces it (C97_header_lost)."
  },
  {
   "property": "C98",
   "status": "partial",
   "theorems": [
    "Verif.Props.C98_layout",
    "Verif.Props.C98_order",
    "Verif.Props.C98_again_partial",
    "Verif.Props.C98_same_partial",
    "Verif.Props.C98_same_fix_partial"
   ],
   "note": "C98_layout: two files of which the same is shown (declarations with their comments, without positions and style of comments) are formatted to the same text, in every mode, with distinct names (C36_not shows that sort.Slice need not treat equal names alike). C98_order: moving options and imports changes nothing. C98_same_partial, C98_same_fix_partial: two files have the same text exactly if their declarations and comments in the order of the formatter are the same. C98_again_partial: formatting the parsed text of a formatted file gives the text. Partial because these three need regular files: the formatter loses some comments and moves others (C89_not, C97_not, C97_header_lost), so two files that differ in those are formatted to the same text."
  },
  {
   "property": "C99",
   "status": "partial",
   "theorems": [
    "Verif.Props.C99_reads_partial",
    "Verif.Props.C99_strict_partial",
    "Verif.Props.C99_begins_partial",
    "Verif.Props.C99_all_partial",
    "Verif.Props.C99_data_partial",
    "Verif.Props.C99_refused_partial",
    "Verif.Props.C99_data_is_file_partial",
    "Verif.Props.C99_data_is_dir_partial",
    "Verif.Props.C99_not_whole",
    "Verif.Props.C99_not_once"
   ],
   "note": "Go/JsonDecode models encoding/json's decoder (values, strings with escapes and surrogate pairs, numbers, storing into structs with tags, lists and maps, DisallowUnknownFields), Model/ExternalConfig the tags of ExternalConfig. Spec/JsonText gives the grammar of RFC 8259 as relations, Spec/ConfigData the documented names, kinds and their meaning. C99_reads: a documented text gives exactly its settings; C99_strict: accepted iff names (in any case) and kinds are right; C99_begins: whatever is accepted begins with such a value; C99_all: every configuration has a text; C99_data, C99_refused, C99_data_is_file, C99_data_is_dir: --config-data. Partial because the code is not strict in two ways: C99_not_whole (text after the value is ignored) and C99_not_once (repeated names)."
  },
  {
   "property": "C100",
   "status": "proved",
   "theorems": [
    "Verif.Props.C100_rule",
    "Verif.Props.C100_fewer",
    "Verif.Props.C100_alone",
    "Verif.Props.C100_union"
   ],
   "note": "Sound says what the parser and the discovery of files provide: parsed files keep to the grammar and lie below the directory of the configuration. KnownNames: the rule names in the configuration exist. The configurations compared are in the same directory."
  },
  {
   "property": "C101",
   "status": "partial",
   "theorems": [
    "Verif.Props.C101_log",
    "Verif.Props.C101_between_partial",
    "Verif.Props.C101_in",
    "Verif.Props.C101_resumed_partial",
    "Verif.Props.C101_create_kept",
    "Verif.Props.C101_create_resumed",
    "Verif.Props.C101_create_refused",
    "Verif.Props.C101_not_whole",
    "Verif.Props.C101_not_again",
    "Verif.Props.C101_create_not_again",
    "Verif.Props.C101_all_resumed_partial",
    "Verif.Props.C101_descriptor_set_again",
    "Verif.Props.C101_init_resumed_partial",
    "Verif.Props.C101_init_refused"
   ],
   "note": "Holds between writes (C101_between_partial, C101_resumed_partial, C101_all_resumed_partial, C101_create_resumed, C101_init_resumed_partial); false in a write, since files are emptied before they are filled (C101_not_whole, C101_not_again, C101_create_not_again, C101_init_refused: a stopped config init is refused from then on). all may also be stopped anywhere in the run of its plugins, if these write apart from the sources and do not read what they left (C101_all_resumed_partial). C101_create_kept holds at all moments, and so does C101_descriptor_set_again: the commands that write a descriptor set may be stopped anywhere and started again. Resuming format needs comments the formatter keeps in place and a parser that reads back formatted texts."
  },
  {
   "property": "C102",
   "status": "proved",
   "theorems": [
    "Verif.Props.C102_local",
    "Verif.Props.C102_unchanged",
    "Verif.Props.C102_steps",
    "Verif.Props.C102_beta"
   ],
   "note": "For all schemas that protoc accepts, from the exact list of failures (C06_reports). C102_local: each failure is due to one package; C102_unchanged: which changed; C102_steps: changes by whole packages add up; C102_beta: the remaining check is about the new schema alone."
  },
  {
   "property": "C103",
   "status": "partial",
   "theorems": [
    "Verif.Props.C103_leaves",
    "Verif.Props.C103_apart",
    "Verif.Props.C103_alone",
    "Verif.Props.C103_ends",
    "Verif.Props.C103_reads",
    "Verif.Props.C103_whole_partial",
    "Verif.Props.C103_done_partial",
    "Verif.Props.C103_well_partial",
    "Verif.Props.C103_same_partial",
    "Verif.Props.C103_not"
   ],
   "note": "format as a program of steps (compile, every read, every write, every output), any number of runs with the same settings and of readers, any schedule, by a rely-guarantee argument: as one run it is the command of the model, schedules end, format without --overwrite only reads. If a write were one step, every file is as it was or formatted at every moment, runs that ended well have formatted their files, all end well if the files can be formatted and compile, and the result does not depend on the schedule (the _partial theorems). C103_not: the code empties a file before it fills it, and a second run that reads in between replaces the file by the header alone while both runs end well. The formatted text must be formatted to itself (C36, C97). C103_apart and C103_leaves hold of the code as it is, with writes of two steps: among any programs that leave its files alone, such as runs about other files, a run that ended well has formatted its files, and a run that ended has left each as it was or formatted."
  },
  {
   "property": "C104",
   "status": "proved",
   "theorems": [
    "Verif.Props.C104_discovery",
    "Verif.Props.C104_transform",
    "Verif.Props.C104_format",
    "Verif.Props.C104_all",
    "Verif.Props.C104_files",
    "Verif.Props.C104_compile",
    "Verif.Props.C104_generate",
    "Verif.Props.C104_lint"
   ],
   "note": "Discovery, for every tree at two places with portable configurations: same files, same display paths, same settings up to the place. files, compile, generate, lint, format and all in the tree: the same output, the same exit error and the same files of the tree, given tools whose results do not depend on the place; format and all if the directories are taken in the same order (C86 says what another order changes). What format makes of a file depends on its name only by the base name, for every sort that only compares."
  },
  {
   "property": "C105",
   "status": "proved",
   "theorems": [
    "Verif.Props.C105_enum_names_camel_case",
    "Verif.Props.C105_enum_names_capitalized",
    "Verif.Props.C105_enum_field_names_upper_snake_case",
    "Verif.Props.C105_enum_field_names_uppercase",
    "Verif.Props.C105_message_field_names_lower_snake_case",
    "Verif.Props.C105_message_field_names_lowercase",
    "Verif.Props.C105_oneof_names_lower_snake_case",
    "Verif.Props.C105_rpc_names_camel_case",
    "Verif.Props.C105_rpc_names_capitalized",
    "Verif.Props.C105_service_names_camel_case",
    "Verif.Props.C105_service_names_capitalized",
    "Verif.Props.C105_message_names_camel_case",
    "Verif.Props.C105_message_names_capitalized",
    "Verif.Props.C105_enums_have_sentence_comments",
    "Verif.Props.C105_enum_fields_have_sentence_comments",
    "Verif.Props.C105_message_fields_have_sentence_comments",
    "Verif.Props.C105_services_have_sentence_comments",
    "Verif.Props.C105_rpcs_have_sentence_comments",
    "Verif.Props.C105_comments_no_inline",
    "Verif.Props.C105_comments_no_c_style",
    "Verif.Props.C105_message_field_names_no_descriptor",
    "Verif.Props.C105_message_fields_duration",
    "Verif.Props.C105_message_fields_time",
    "Verif.Props.C105_wkt_duration_suffix",
    "Verif.Props.C105_wkt_timestamp_suffix",
    "Verif.Props.C105_message_fields_no_json_name",
    "Verif.Props.C105_gogo_not_imported",
    "Verif.Props.C105_imports_not_public",
    "Verif.Props.C105_imports_not_weak",
    "Verif.Props.C105_rpcs_no_streaming",
    "Verif.Props.C105_enums_no_allow_alias",
    "Verif.Props.C105_wkt_directly_imported",
    "Verif.Props.C105_file_header",
    "Verif.Props.C105_file_names_lower_snake_case",
    "Verif.Props.C105_package_lower_case",
    "Verif.Props.C105_package_lower_snake_case",
    "Verif.Props.C105_package_is_declared",
    "Verif.Props.C105_package_versioned",
    "Verif.Props.C105_syntax_proto3",
    "Verif.Props.C105_required",
    "Verif.Props.C105_unset",
    "Verif.Props.C105_go_package_not_long_form",
    "Verif.Props.C105_message_fields_not_floats",
    "Verif.Props.C105_names",
    "Verif.Props.C105_package_no_keywords",
    "Verif.Props.C105_rpc_options_no_google_api_http",
    "Verif.Props.C105_service_names_no_plurals",
    "Verif.Props.C105_hint_followed",
    "Verif.Props.C105_hint",
    "Verif.Props.C105_types_unique",
    "Verif.Props.C105_types_in_same_file",
    "Verif.Props.C105_types_after_service",
    "Verif.Props.C105_types_only_in_file",
    "Verif.Props.C105_comments_except",
    "Verif.Props.C105_sentence_comments_except",
    "Verif.Props.C105_not_empty_except",
    "Verif.Props.C105_packages_same_in_dir",
    "Verif.Props.C105_options_same_in_dir"
   ],
   "note": "Position and exact text of every failure of every rule not covered by C88. The rule about HTTP options and the rules about request and response types are stated for files that follow the grammar; the former also for files without the options on which it crashes (C33)."
  },
  {
   "property": "C106",
   "status": "partial",
   "theorems": [
    "Verif.Props.C106_alone",
    "Verif.Props.C106_leaves",
    "Verif.Props.C106_kept_partial",
    "Verif.Props.C106_whole_partial",
    "Verif.Props.C106_made_partial",
    "Verif.Props.C106_not"
   ],
   "note": "Proved for content that was there before the runs began, and for the files they make, among programs that leave these files alone. False of content that appears between the check and the write: two runs of create both end well and the second one has overwritten the file of the first (C106_not)."
  },
  {
   "property": "C107",
   "status": "proved",
   "theorems": [
    "Verif.Props.C107_says",
    "Verif.Props.C107_refused",
    "Verif.Props.C107_iff",
    "Verif.Props.C107_found"
   ],
   "note": "Every error text of the conversion and of the search, with the group of checks it belongs to. Messages of the JSON decoder, of the YAML library and of the operating system are parameters of the model. The text for an output path that can not be made relative is left out: it needs a relative directory."
  },
  {
   "property": "C108",
   "status": "proved",
   "theorems": [
    "Verif.Props.C108_reads",
    "Verif.Props.C108_aligned",
    "Verif.Props.C108_purposes",
    "Verif.Props.C108_hints",
    "Verif.Props.C108_lists",
    "Verif.Props.C108_version"
   ],
   "note": "The tabwriter and the purposes, parameters before, are modelled: the table for two cells per row without tabs or line breaks, the texts of all 96 rules as in the code."
  },
  {
   "property": "C109",
   "status": "proved",
   "theorems": [
    "Verif.Props.C109_line",
    "Verif.Props.C109_history",
    "Verif.Props.C109_content",
    "Verif.Props.C109_alone",
    "Verif.Props.C109_reading",
    "Verif.Props.C109_again"
   ],
   "note": "Lines are arbitrary parsed command lines on arbitrary systems. C109_line and C109_history state which path each command may change (Spec.MayChange), for absolute clean paths and where git and removal keep to the temporary directory. C109_content needs no such assumption. C109_alone, C109_reading and C109_again assume that everything can be printed. The protoc downloads of compiling commands and temporary files of the compiler are not on the modelled disk."
  },
  {
   "property": "C110",
   "status": "proved",
   "theorems": [
    "Verif.Props.C110_described",
    "Verif.Props.C110_redistributed",
    "Verif.Props.C110_same_report",
    "Verif.Props.C110_not_breaking"
   ],
   "note": "What protoc makes of a file is specified as a function of the parse tree (Spec/Described) with the lookup of type names, the names of map entries and of the fields of groups, and everything break check ignores as parameters. C110_described: the text that the formatter writes reads back as a file with the same description up to the order of the imports and to options. C110_redistributed: so packages keep all definitions and imports when some files are formatted. C110_same_report and C110_not_breaking say so of the commands. Assumed: the parser reads formatted texts as the grammar does (ReadsBack), the file fits the grammar (FileFits), with --fix the header is made of comments and path and prefix have no quotes. The parse tree has no label for groups, so the description gives them none."
  },
  {
   "property": "C111",
   "status": "partial",
   "theorems": [
    "Verif.Props.C111_reported",
    "Verif.Props.C111_newline_partial",
    "Verif.Props.C111_formatted"
   ],
   "note": "C111_reported shows that the property fails for every created file: format --lint reports it, since the created text lacks the newline at the end. C111_newline_partial is the part that holds: that newline is all that format --overwrite adds, with --fix or without, and C111_formatted: with it the file is its own formatted text. The parser is a parameter and is to read the created text as what it declares. Examples: a created file with a header is reported, then gets its newline."
  },
  {
   "property": "C112",
   "status": "proved",
   "theorems": [
    "Verif.Props.C112_clean_iff_stated",
    "Verif.Props.C112_both_ways",
    "Verif.Props.C112_old_facts",
    "Verif.Props.C112_several",
    "Verif.Props.C112_history",
    "Verif.Props.C112_descriptors",
    "Verif.Props.C112_command"
   ],
   "note": "Facts in Spec/Facts. Clean iff no fact about a checked package is lost (C112_clean_iff_stated), for schemas, descriptor sets and the command with --descriptor-set-path; both directions, several old schemas, histories. Well-formed schemas as protoc and the reflection step make them (SchemaOK / DescriptorsOK)."
  },
  {
   "property": "C113",
   "status": "proved",
   "theorems": [
    "Verif.Props.C113_found",
    "Verif.Props.C113_lists",
    "Verif.Props.C113_config",
    "Verif.Props.C113_files",
    "Verif.Props.C113_lint"
   ],
   "note": "C113_found: the files found after the exclude was added are those found before that do not lie at or below it, listed for the same directories and under the same names. C113_lists: in the same order. C113_config: the configuration is the same up to the excludes. C113_files: what the files command prints. C113_lint: what lint says of the files that stay. Both runs are taken to find files; whether discovery succeeds is C21_walk_succeeds and C54."
  },
  {
   "property": "C114",
   "status": "partial",
   "theorems": [
    "Verif.Props.C114_configured_partial",
    "Verif.Props.C114_data_partial",
    "Verif.Props.C114_none_partial",
    "Verif.Props.C114_not_dots",
    "Verif.Props.C114_not_outside"
   ],
   "note": "Proved with a configuration file, with a configuration on the command line and with none, unless a name in the configuration directory starts with two dots, or there is no configuration and the files are outside the working directory. In these two cases the code fails; both are shown by a witness."
  },
  {
   "property": "C115",
   "status": "partial",
   "theorems": [
    "Verif.Props.C115_alone",
    "Verif.Props.C115_reads",
    "Verif.Props.C115_seen_partial",
    "Verif.Props.C115_reports_partial",
    "Verif.Props.C115_not",
    "Verif.Props.C115_not_directory"
   ],
   "note": "Every schedule of lint with any number of format runs and readers. Missing: writes in two steps, as the code does them, and rules that compare the files of a directory; for both the property is false of the code (C115_not, C115_not_directory)."
  },
  {
   "property": "C116",
   "status": "proved",
   "theorems": [
    "Verif.Props.C116_check",
    "Verif.Props.C116_modes",
    "Verif.Props.C116_repaired",
    "Verif.Props.C116_all",
    "Verif.Props.C116_all_again"
   ],
   "note": "Conditions: the formatted text of a file is formatted to itself (C36 says when), the formatted files compile, and for all the plugins do not write to the files; for the second all they also write again what they wrote."
  },
  {
   "property": "C117",
   "status": "proved",
   "theorems": [
    "Verif.Props.C117_format",
    "Verif.Props.C117_lint",
    "Verif.Props.C117_overwrite"
   ],
   "note": "For files governed by the configuration of the directory asked for. lint is stated for a run without flags that does not fail on a file it cannot read or parse."
  },
  {
   "property": "C118",
   "status": "proved",
   "theorems": [
    "Verif.Props.C118_history",
    "Verif.Props.C118_two_steps",
    "Verif.Props.C118_two_ways"
   ],
   "note": "The commands themselves, from C03, C66 and C70. Releases have the same break configuration, are written without --json, and protoc makes the same definitions of a release in all its modes; decoding undoes encoding, and encodings and checksums tell files apart. Every release is one protoc accepts; a finite history is extended by repeating its last release."
  },
  {
   "property": "C119",
   "status": "proved",
   "theorems": [
    "Verif.Props.C119_listed",
    "Verif.Props.C119_compiled"
   ],
   "note": "C119_listed for format and lint, C119_compiled for protoc. The file of a line is the path it leads to from the working directory (fileAt), so the statement is about printed lines and files on disk only."
  },
  {
   "property": "C120",
   "status": "proved",
   "theorems": [
    "Verif.Props.C120_sets",
    "Verif.Props.C120_descriptor_set",
    "Verif.Props.C120_git"
   ],
   "note": "An iff for the comparison of the descriptor sets, and the whole command against a descriptor set and against a branch of the repository. Definitions may grow at any depth; an enum with aliases (two values of one number) must stay as it was."
  },
  {
   "property": "C121",
   "status": "proved",
   "theorems": [
    "Verif.Props.C121_described",
    "Verif.Props.C121_sets",
    "Verif.Props.C121_command"
   ],
   "note": "The descriptors of the other files are unchanged; the comparison and the whole command find nothing. What protoc makes of a file is specified with the lookup of type names as a parameter; that it accepts the files is a hypothesis."
  },
  {
   "property": "C122",
   "status": "proved",
   "theorems": [
    "Verif.Props.C122_kept",
    "Verif.Props.C122_sets",
    "Verif.Props.C122_command",
    "Verif.Props.C122_git"
   ],
   "note": "Induction over the sequence, from C110 and C121. What protoc makes of a file is specified as in C110; at each moment protoc accepts the files. Formatted files fit the grammar and the parser reads formatted texts and created files as the grammar says, as in C110 and C121."
  },
  {
   "property": "C123",
   "status": "proved",
   "theorems": [
    "Verif.Props.C123_sets",
    "Verif.Props.C123_kept",
    "Verif.Props.C123_descriptor_set",
    "Verif.Props.C123_git"
   ],
   "note": "Equivalence between the outcome of the command and statements about file descriptors only, from C112 and the reflection of C12. Enums with aliases are left out of the equivalence: of several values of a number the last one listed counts (C112 covers them on the level of reflected packages). C123_kept needs no such assumption: a clean check keeps everything that is not an enum value."
  },
  {
   "property": "C124",
   "status": "proved",
   "theorems": [
    "Verif.Props.C124_declared",
    "Verif.Props.C124_removed",
    "Verif.Props.C124_git"
   ],
   "note": "From sources to the outcome of the command: descriptors are what Spec/Described says protoc makes of the sources (as in C110), and groups, maps and oneofs are assumed to stand in messages only, as the grammar of proto files has it. Only declarations outside of messages; what is inside is covered by C123 on the level of descriptors."
  },
  {
   "property": "C125",
   "status": "proved",
   "theorems": [
    "Verif.Props.C125_declared",
    "Verif.Props.C125_removed",
    "Verif.Props.C125_git",
    "Verif.Props.C125_declared_value",
    "Verif.Props.C125_values",
    "Verif.Props.C125_values_git"
   ],
   "note": "From sources to the outcome of the command: descriptors are what Spec/Described says protoc makes of the sources (as in C110). For enum values, no enum may have aliases, as in C123. Labels and oneofs of fields are in C126, builtin types in C128, and streams of methods in C127. Other types and the request and response of methods are compared as well (C123), but are not read off the sources here."
  },
  {
   "property": "C126",
   "status": "proved",
   "theorems": [
    "Verif.Props.C126_declared",
    "Verif.Props.C126_removed",
    "Verif.Props.C126_git"
   ],
   "note": "From sources to the outcome of the command: descriptors are what Spec/Described says protoc makes of the sources (as in C110). The parser keeps no label of a group other than optional, so the model gives every group the label optional; a change of the label of a group is outside of this claim."
  },
  {
   "property": "C127",
   "status": "proved",
   "theorems": [
    "Verif.Props.C127_declared",
    "Verif.Props.C127_removed",
    "Verif.Props.C127_git"
   ],
   "note": "From sources to the outcome of the command: descriptors are what Spec/Described says protoc makes of the sources (as in C110). The request and response types are compared as well (C123), but are not read off the sources here."
  },
  {
   "property": "C128",
   "status": "proved",
   "theorems": [
    "Verif.Props.C128_declared",
    "Verif.Props.C128_removed",
    "Verif.Props.C128_git"
   ],
   "note": "From sources to the outcome of the command: descriptors are what Spec/Described says protoc makes of the sources (as in C110), and a field has the number of a builtin type in its descriptor exactly if that type is written (KnowsBuiltins). Types that are messages or enums are compared by their full names (C123), which are not read off the sources here."
  }
 ]
}
