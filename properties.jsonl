{"id": "C01", "title": "break check passes exactly the compatible changes", "statement": "`prototool break check` reports no failure and no error exactly when every package, message (at any nesting depth), field, oneof, enum, enum value, service and method of the old schema still exists in the new schema with the same identity (fields and enum values by number, everything else by name), the same name, label, type, type name, oneof membership, request/response type and streaming flags, and (in the default beta mode) no stable package of the new schema depends on a beta package.", "quantifier": "all pairs of old/new package sets (any number of packages, any nesting depth, any field numbers and names) and all break settings", "why_tests_cant": "The set of schema pairs is infinite and the claim is an equivalence: a test can show one reported change, not that no breaking change escapes nor that no compatible change is reported.", "anchors": ["internal/breaking/runner.go:Run", "internal/breaking/breaking.go:AllCheckers", "internal/breaking/helpers.go", "internal/breaking/check_*.go", "docs/breaking.md"]}
{"id": "C02", "title": "break check of a schema against itself is clean", "statement": "Checking any schema against itself yields no failures, provided no stable package depends on a beta package (or beta dependencies are allowed) and every label and type code is a known one.", "quantifier": "all package sets and all break settings", "why_tests_cant": "Reflexivity is a statement about every schema, including deep nesting, that no finite fixture set covers.", "anchors": ["internal/breaking/runner.go:Run", "internal/breaking/breaking.go:AllCheckers"]}
{"id": "C03", "title": "break check composes over history", "statement": "If checking version A against B is clean and checking B against C is clean, then checking A against C is clean, so checking each commit against its predecessor is as strong as checking against the oldest release.", "quantifier": "all triples (and, by induction, all finite histories) of package sets, and all break settings", "why_tests_cant": "It quantifies over all histories; tests compare only pairs of fixtures.", "anchors": ["internal/breaking/runner.go:Run", "internal/breaking/helpers.go"]}
{"id": "C04", "title": "additions are never breaking", "statement": "Extending a schema only by adding packages, files, messages, fields with unused numbers, oneofs, enums, enum values, services or methods yields no failures.", "quantifier": "all schemas and all extensions of them", "why_tests_cant": "Infinite family of extensions.", "anchors": ["internal/breaking/breaking.go:AllCheckers", "docs/breaking.md"]}
{"id": "C05", "title": "beta packages are outside the check by default", "statement": "Unless include_beta is set, the outcome of break check does not depend on the contents of beta packages (last package component vMAJORbetaBETA, MAJOR and BETA positive) in either version, except through the names of the beta packages that stable packages of the new version depend on.", "quantifier": "all package sets, all contents of beta packages", "why_tests_cant": "Independence from an unbounded part of the input cannot be shown by examples.", "anchors": ["internal/breaking/runner.go:Run", "internal/extract/extract.go:newPackageSet", "internal/protostrs/protostrs.go:MajorBetaVersion"]}
{"id": "C06", "title": "every single breaking edit is reported by the check that documents it", "statement": "For each documented breaking change (delete a package, message, field, oneof, enum, enum value, service, method; rename a field or enum value; change a field label or type; move a field into a oneof or out of one; change request/response type or streaming) the corresponding check emits a failure for each affected element and for no other element.", "quantifier": "all schema pairs and all elements", "why_tests_cant": "Per-element completeness and precision over an unbounded schema.", "anchors": ["internal/breaking/check_*.go", "internal/breaking/helpers.go"]}
{"id": "C07", "title": "break check output does not depend on map iteration order", "statement": "Package, message, field, enum and service maps are iterated in random order, yet the printed failures are the same list for every iteration order.", "quantifier": "all iteration orders of every map, all schema pairs", "why_tests_cant": "A test run observes only the iteration orders the runtime happened to choose.", "anchors": ["internal/breaking/helpers.go", "internal/exec/runner.go:printFailuresForErrorFormat", "internal/text/text.go:SortFailures"]}
{"id": "C08", "title": "moving definitions between files of a package is not breaking", "statement": "Break check is per package: redistributing the enums, messages and services of a package over its files, renaming files, or reordering definitions does not change the outcome.", "quantifier": "all file descriptor sets and all redistributions", "why_tests_cant": "Infinite number of redistributions.", "anchors": ["internal/reflect/reflect.go:NewPackageSet", "docs/breaking.md"]}
{"id": "C09", "title": "package graph: dependencies and importers mirror each other", "statement": "In the extracted package set, package A lists B among its dependencies exactly when B lists A among its importers, every name listed is a package of the set, and construction fails when a dependency is unknown (unless it is a beta package being filtered out).", "quantifier": "all reflect package sets, with and without beta filtering", "why_tests_cant": "Graph invariant over all inputs.", "anchors": ["internal/extract/extract.go:newPackageSet"]}
{"id": "C10", "title": "descriptor-set merge is a faithful union", "statement": "Merging file descriptor sets succeeds exactly when every file has a name and files with equal names have equal content; the result then contains each file exactly once, sorted by name, and the result does not depend on the order of the inputs or on how files are spread over the input sets.", "quantifier": "all lists of file descriptor sets and all permutations of them", "why_tests_cant": "Order independence and exactly-once over unbounded inputs.", "anchors": ["internal/desc/desc.go:MergeFileDescriptorSets"]}
{"id": "C11", "title": "descriptor-set sort moves exactly one file to the end", "statement": "Sorting a descriptor set for a target file returns the same files with the target file last and the relative order of the others kept, and fails on unnamed or duplicate names or if the target is not in the set.", "quantifier": "all descriptor sets and targets", "why_tests_cant": "Unbounded list lengths and positions.", "anchors": ["internal/desc/desc.go:SortFileDescriptorSet"]}
{"id": "C12", "title": "reflection over descriptor sets is order independent", "statement": "The package set built from file descriptor sets (and its error or success) does not depend on the order of sets or of files in a set, all listings are sorted, and conflicting copies of a file, empty packages, or unresolved imports are rejected.", "quantifier": "all lists of file descriptor sets and permutations", "why_tests_cant": "Unbounded inputs and permutations.", "anchors": ["internal/reflect/reflect.go:NewPackageSet"]}
{"id": "C13", "title": "package version parsing accepts exactly vMAJOR and vMAJORbetaBETA", "statement": "A package is classified as versioned exactly when it has at least two dot-separated components and the last is v followed by a positive 64-bit decimal MAJOR, optionally followed by beta and a positive 64-bit decimal BETA; the returned numbers are the ones written.", "quantifier": "all package strings", "why_tests_cant": "All strings; boundary cases such as leading zeros, overflow, missing digits, repeated beta.", "anchors": ["internal/protostrs/protostrs.go:MajorBetaVersion"]}
{"id": "C14", "title": "set helpers sort and deduplicate", "statement": "SortUniq returns a strictly increasing list with exactly the non-empty elements of the input; SortUniqModify the same for the mapped elements; Intersection returns exactly the common non-empty elements, strictly increasing; MapToSortedSlice returns the keys of a map, strictly increasing; all are independent of input order.", "quantifier": "all string lists", "why_tests_cant": "All lists and permutations.", "anchors": ["internal/strs/strs.go:SortUniq", "internal/strs/strs.go:SortUniqModify", "internal/strs/strs.go:Intersection", "internal/strs/strs.go:MapToSortedSlice"]}
{"id": "C15", "title": "snake case conversion is well formed and stable", "statement": "For every CamelCase identifier the lower (upper) snake conversion is accepted by the lower (upper) snake case predicate, keeps exactly the letters and digits of the input up to case, and converting the result again changes nothing.", "quantifier": "all strings accepted by the CamelCase predicate; idempotence for all strings", "why_tests_cant": "All identifiers; acronyms, digits and single letters interact.", "anchors": ["internal/strs/strs.go:ToLowerSnakeCase", "internal/strs/strs.go:ToUpperSnakeCase", "internal/strs/strs.go:IsLowerSnakeCase", "internal/strs/strs.go:IsUpperSnakeCase", "internal/strs/strs.go:IsCamelCase"]}
{"id": "C16", "title": "camel-case word splitting loses nothing", "statement": "Splitting a CamelCase word yields non-empty pieces whose concatenation, up to case and underscores, is the input, so the plural and outlawed-word linters look at every character.", "quantifier": "all identifiers", "why_tests_cant": "All strings.", "anchors": ["internal/strs/strs.go:SplitCamelCaseWord", "internal/strs/strs.go:SplitSnakeCaseWord"]}
{"id": "C17", "title": "failure lines have the requested shape", "statement": "Printing a failure with a field list writes the selected non-empty fields in the requested order joined by colons and one newline; line and column are never printed as 0, a missing file name is printed as <input>; unknown fields are an error; parsing the printed name of a field gives the field back.", "quantifier": "all failures, all field lists", "why_tests_cant": "All field subsets/orders and contents.", "anchors": ["internal/text/text.go:Fprintln", "internal/text/text.go:ParseColonSeparatedFailureFields", "internal/text/text.go:ParseFailureField"]}
{"id": "C18", "title": "failure sorting is canonical", "statement": "Sorting failures yields a permutation of the input ordered by file, line, column, rule and message, and two inputs that are permutations of each other (without nil entries) print identically.", "quantifier": "all failure lists", "why_tests_cant": "All permutations.", "anchors": ["internal/text/text.go:SortFailures"]}
{"id": "C19", "title": "configuration discovery finds the nearest ancestor", "statement": "For an absolute directory the configuration used is the one in the nearest ancestor-or-self directory that has one; two configuration files in that directory are an error; none up to the root means no configuration.", "quantifier": "all directory depths and all placements of configuration files", "why_tests_cant": "All trees.", "anchors": ["internal/settings/config_provider.go:getFilePathForDir", "internal/settings/config_provider.go:GetFilePathForDir"]}
{"id": "C20", "title": "excludes match whole path components", "statement": "A file is excluded exactly when the file itself or one of its ancestor directories strictly below the configuration directory equals one of the exclude paths; in particular an exclude foo/bar never excludes foo/barbaz.", "quantifier": "all absolute clean paths and exclude lists", "why_tests_cant": "All path shapes.", "anchors": ["internal/file/file.go:IsExcluded"]}
{"id": "C21", "title": "file discovery returns each proto file exactly once", "statement": "Discovery for a directory walks the directory of its nearest configuration (the directory itself if there is none) and returns exactly the files below it whose name ends in .proto and that are not excluded, each once, grouped under its own directory; every other file is ignored.", "quantifier": "all directory trees and exclude settings", "why_tests_cant": "All trees.", "anchors": ["internal/file/proto_set_provider.go:walkAndGetAllProtoFiles", "internal/file/proto_set_provider.go:getDirPathToProtoFiles"]}
{"id": "C22", "title": "walk timeout never yields a partial result", "statement": "Whatever the interleaving of the directory walk with the timer, discovery returns either the complete file list of the finished walk or an error; it never returns a partial list and it always terminates once the walk does.", "quantifier": "all schedules of walk and timer, all walk lengths", "why_tests_cant": "Concurrent schedules.", "anchors": ["internal/file/proto_set_provider.go:walkAndGetAllProtoFiles"]}
{"id": "C23", "title": "the linters that run are the configured ones", "statement": "The linters run are exactly (linters of the chosen group plus rules.add) minus rules.remove, each once; an unknown group or rule name in add, remove or ignores is an error; the default group is uber1 unless no_default is set.", "quantifier": "all lint configurations", "why_tests_cant": "All subsets and orders of rules.", "anchors": ["internal/lint/lint.go:GetLinters"]}
{"id": "C24", "title": "lint groups match the documentation", "statement": "Every rule of every lint group is one of the registered rules, rule names are unique, and each group has exactly the rules the documentation table assigns to it.", "quantifier": "all registered rules and groups", "why_tests_cant": "A complete table comparison, re-proved when the table changes.", "anchors": ["internal/lint/lint.go:AllLinters", "internal/lint/lint.go:GroupToLinters", "docs/lint.md"]}
{"id": "C25", "title": "lint ignores remove exactly the ignored failures", "statement": "A failure of rule R on file F is dropped exactly when F, or an ancestor directory of F strictly below the configuration directory, is listed under ignores for R; failures of other rules and files are unaffected.", "quantifier": "all failures, all ignore settings", "why_tests_cant": "All combinations of rules and paths.", "anchors": ["internal/lint/lint.go:filterIgnores", "internal/lint/lint.go:shouldIgnore"]}
{"id": "C26", "title": "generated ignores make lint clean", "statement": "Putting the output of lint --generate-ignores into the configuration makes the same lint run report no failure that has a file name.", "quantifier": "all lint results, all file positions under the configuration directory", "why_tests_cant": "Round-trip between two features for all failure lists.", "anchors": ["internal/exec/runner.go:generateIgnores", "internal/settings/config_provider.go:externalConfigToConfig", "internal/lint/lint.go:filterIgnores"]}
{"id": "C27", "title": "lint output is deterministic", "statement": "The list of lint failures does not depend on the iteration order of directories or linters.", "quantifier": "all iteration orders", "why_tests_cant": "Map iteration order is random at run time.", "anchors": ["internal/lint/lint.go:CheckMultiple", "internal/lint/lint.go:GetLinters"]}
{"id": "C28", "title": "suppression annotations silence only the annotated element", "statement": "With allow_suppression, a suppressible failure is dropped exactly when a line of the comment of the offending element contains @suppresswarnings NAME; without allow_suppression comments have no effect.", "quantifier": "all comments, failures, settings", "why_tests_cant": "All comment texts.", "anchors": ["internal/lint/base_linter.go:Check"]}
{"id": "C29", "title": "naming linters report exactly the offending elements", "statement": "Each naming linter (enums, enum fields, messages, message fields, oneofs, services, RPCs, files, packages) reports one failure per offending element, at any nesting depth of messages, and nothing for conforming elements; in a grammatical file without proto2 groups these are all elements of the kind (elements inside groups are not visited).", "quantifier": "all parsed files", "why_tests_cant": "All ASTs with unbounded nesting.", "anchors": ["internal/lint/check_*_names_*.go", "internal/lint/check_package_*.go"]}
{"id": "C30", "title": "enum value prefix and zero value linters", "statement": "ENUM_FIELD_PREFIXES and ENUM_ZERO_VALUES_INVALID accept an enum value exactly when its name is prefixed by (is, for zero values) the upper snake names of the enclosing messages and the enum, joined by underscores (followed by INVALID); the EXCEPT_MESSAGE variants ignore enclosing messages.", "quantifier": "all nesting depths", "why_tests_cant": "All ASTs.", "anchors": ["internal/lint/check_enum_field_prefixes.go", "internal/lint/check_enum_zero_values_invalid.go", "internal/lint/check_enum_field_prefixes_except_message.go", "internal/lint/check_enum_zero_values_invalid_except_message.go"]}
{"id": "C31", "title": "same-in-directory linters", "statement": "The packages-same-in-dir and option-same-in-dir linters are silent exactly when all files of the directory agree, and otherwise report on every file, independently of file order.", "quantifier": "all directories (lists of files)", "why_tests_cant": "All lists.", "anchors": ["internal/lint/check_packages_same_in_dir.go", "internal/lint/check_file_options_same_in_dir.go"]}
{"id": "C32", "title": "request/response type linters", "statement": "REQUEST_RESPONSE_TYPES_UNIQUE is silent exactly when no message is used twice as request or response within a file; IN_SAME_FILE exactly when all are top-level messages of the file; NAMES_MATCH_RPC exactly when they are RpcName+Request/Response.", "quantifier": "all parsed files", "why_tests_cant": "All ASTs.", "anchors": ["internal/lint/check_request_response_*.go"]}
{"id": "C33", "title": "linters never panic", "statement": "No linter crashes on any parseable file.", "quantifier": "all parsed files", "why_tests_cant": "All ASTs.", "anchors": ["internal/lint/check_rpc_options_no_google_api_http.go", "internal/lint/check_*.go"]}
{"id": "C34", "title": "format output is canonical text", "statement": "Formatted output is empty or ends with exactly one newline, does not start with white space, no printed line has trailing white space, and indentation returns to zero at the end of every top-level element.", "quantifier": "all parsed files", "why_tests_cant": "All ASTs.", "anchors": ["internal/format/transformer.go:Transform", "internal/buf/buf.go:Printer"]}
{"id": "C35", "title": "format keeps every declaration", "statement": "Formatting without --fix prints every syntax, package, import and file option, sorted imports and options, and every top-level comment exactly once.", "quantifier": "all parsed files", "why_tests_cant": "All ASTs.", "anchors": ["internal/format/first_pass_visitor.go", "internal/format/main_visitor.go"]}
{"id": "C36", "title": "format is stable under its own ordering", "statement": "Formatting a file whose options and imports have been put in the order the formatter prints them yields the same text: the formatter's ordering is a fixed point. With --fix, formatting the file with the managed options replaced and put in that order yields the text of the first run, with the header once.", "quantifier": "all parsed files, all file headers, names of files and Java prefixes, and all implementations of sort.Slice", "why_tests_cant": "All ASTs.", "anchors": ["internal/format/base_visitor.go:pOptions", "internal/format/first_pass_visitor.go:PImports", "internal/format/first_pass_visitor.go:Do", "internal/format/transformer.go:Transform"]}
{"id": "C37", "title": "format --fix makes the file option linters pass", "statement": "After format --fix on a file with a package, the managed file options have exactly the values the option linters of the lint group require, and all unmanaged options are kept.", "quantifier": "all packages, file names, prefixes, existing options", "why_tests_cant": "All combinations.", "anchors": ["internal/format/first_pass_visitor.go:Do", "internal/lint/check_file_options_equal.go"]}
{"id": "C38", "title": "format writes files only with --overwrite", "statement": "format changes a file on disk only in overwrite mode and only if the formatted text differs; the exit code is zero exactly when there was no diff (or overwrite) and no failure; a second overwrite run after a stable format writes nothing.", "quantifier": "all file contents and flag combinations", "why_tests_cant": "All flag combinations and contents.", "anchors": ["internal/exec/runner.go:formatFile", "internal/exec/runner.go:format", "internal/exec/runner.go:Format"]}
{"id": "C39", "title": "create never overwrites content", "statement": "create fails without writing anything if any target exists with content, has an empty path or lacks a parent directory; otherwise it only writes the requested paths.", "quantifier": "all file systems and argument lists", "why_tests_cant": "All states.", "anchors": ["internal/create/handler.go:Create", "internal/create/handler.go:checkFilePath"]}
{"id": "C40", "title": "create derives the package from the longest matching directory", "statement": "The package is the explicit one if given; otherwise the base package of the longest create.packages directory containing the new file, followed by the relative directory components; otherwise the path relative to the configuration; the result does not depend on map iteration order.", "quantifier": "all configurations, all paths, all map iteration orders", "why_tests_cant": "All combinations.", "anchors": ["internal/create/handler.go:getPkg", "internal/create/handler.go:getPkgFromRel", "docs/create.md"]}
{"id": "C41", "title": "created files pass the file option linters", "statement": "The template written by create sets package and options to the values that the option linters of the group in force require.", "quantifier": "all packages, file names and prefixes", "why_tests_cant": "All combinations.", "anchors": ["internal/create/handler.go:create", "internal/lint/check_file_options_equal.go"]}
{"id": "C42", "title": "compile: all schedules give the same verdict", "statement": "For every interleaving of the concurrent protoc invocations, compile ends with the same outcome: errors if any invocation errs, otherwise the same sorted failures, otherwise the descriptor sets of all invocations; at most the configured number run at once and the run always terminates.", "quantifier": "all schedules, all numbers of commands and CPU counts", "why_tests_cant": "Concurrent schedules.", "anchors": ["internal/protoc/compiler.go:Compile"]}
{"id": "C43", "title": "compile removes its temporary files", "statement": "On every path (success, failures, errors at any stage) every temporary descriptor-set file created is removed.", "quantifier": "all error points and schedules", "why_tests_cant": "All error points.", "anchors": ["internal/protoc/compiler.go:Compile", "internal/protoc/compiler.go:getCmdMetas", "internal/protoc/compiler.go:cleanCmdMetas"]}
{"id": "C44", "title": "protoc is given the right include path", "statement": "The include list has the configured include paths first, then the well-known-types path, and the configuration directory is added exactly when it is not already listed and no listed path is a prefix of the directory being compiled.", "quantifier": "all configurations and directories", "why_tests_cant": "All path combinations.", "anchors": ["internal/protoc/compiler.go:getIncludes"]}
{"id": "C45", "title": "Go import modifiers cover every other package", "statement": "For go and gogo plugins an M modifier is passed for every proto file outside the compiled directory, every well-known type and every configured extra modifier, each file at most once, sorted, and never for a file of the directory itself.", "quantifier": "all proto sets and configurations", "why_tests_cant": "All inputs.", "anchors": ["internal/protoc/compiler.go:getPluginFlagSetProtoFlags"]}
{"id": "C46", "title": "every protoc output line is accounted for", "statement": "Each line protoc writes becomes a failure, is deliberately ignored by the documented rules, or makes the run fail; a failed protoc run never ends in success.", "quantifier": "all protoc outputs", "why_tests_cant": "All output texts.", "anchors": ["internal/protoc/compiler.go:parseProtocOutput", "internal/protoc/compiler.go:parseProtocLine", "internal/protoc/compiler.go:runCmdMeta"]}
{"id": "C47", "title": "protoc cache: a returned path was verified", "statement": "Whatever other processes do and wherever they crash, a process uses a cached protoc only if that binary answered the version query with the configured version, downloads happen under the file lock one at a time, and a broken download is repaired by the next run.", "quantifier": "all interleavings and crash points of any number of processes", "why_tests_cant": "Concurrent processes and crash points.", "anchors": ["internal/protoc/downloader.go:cache", "internal/protoc/downloader.go:checkDownloaded", "internal/protoc/downloader.go:downloadInternal"]}
{"id": "C48", "title": "download stays inside the cache directory", "statement": "Unpacking the protoc archive writes only below the cache directory of the version.", "quantifier": "all archives", "why_tests_cant": "All archive entry names.", "anchors": ["internal/protoc/downloader.go:downloadInternal"]}
{"id": "C49", "title": "protoc download location", "statement": "The cache directory and download URL depend only on version, platform, cache flag and URL override; different versions use different directories; unsupported platforms are errors; an override URL is used verbatim.", "quantifier": "all versions, platforms and flags", "why_tests_cant": "All strings.", "anchors": ["internal/protoc/downloader.go:getProtocURL", "internal/protoc/downloader.go:getBasePath", "internal/protoc/downloader.go:getDefaultBasePathInternal"]}
{"id": "C50", "title": "configuration validation", "statement": "An accepted configuration has absolute clean exclude, include, ignore and output paths, disjoint add/remove rules, a file header in which every line is a comment unless the text is declared to be commented already, plugin names without the protoc-gen- prefix, an import path when Go plugins are used, and suppression only in development mode; every violation is rejected.", "quantifier": "all external configurations", "why_tests_cant": "All combinations of fields.", "anchors": ["internal/settings/config_provider.go:externalConfigToConfig"]}
{"id": "C51", "title": "grpc command validation", "statement": "The grpc command accepts flags exactly when address and method are set, exactly one of data and stdin is given, and the TLS flags are consistent; tcp and unix addresses are parsed, other schemes rejected; the service found for a method is the unique one with that full name in the first descriptor set containing it.", "quantifier": "all flag combinations and descriptor sets", "why_tests_cant": "All combinations.", "anchors": ["internal/exec/runner.go:GRPC", "internal/grpc/handler.go:getNetworkAddress", "internal/grpc/handler.go:getServiceInfo"]}
{"id": "C52", "title": "exit codes", "statement": "A command exits 0 exactly when it returned no error, 255 for failures found, 1 for other errors, and an error text is printed at most once.", "quantifier": "all command results", "why_tests_cant": "All results.", "anchors": ["internal/cmd/cmd.go:printAndGetErrorExitCode", "internal/cmd/cmd.go:runRootCommand", "internal/cmd/templates.go:checkCmd"]}
{"id": "C53", "title": "lint group diff", "statement": "--diff-lint-groups prints exactly the symmetric difference of the two groups, marked by side, sorted.", "quantifier": "all pairs of groups and linter tables", "why_tests_cant": "All pairs.", "anchors": ["internal/exec/runner.go:diffMaps", "internal/exec/runner.go:getLinterIDs"]}
{"id": "C54", "title": "every file is governed by its own nearest configuration", "statement": "When discovery for a directory succeeds without configuration data, the configuration it returns is, for every directory with files in the result, the one in the nearest ancestor-or-self directory that has a configuration file; directories under different configuration files are never mixed under one of them.", "quantifier": "all directory trees, all placements of configuration files, all map iteration orders", "why_tests_cant": "The result is assembled by ranging over maps keyed by configuration file; tests fix one tree and one iteration order.", "anchors": ["internal/file/proto_set_provider.go: GetForDir, getBaseProtoSets", "internal/settings/config_provider.go: GetFilePathForDir, Get"]}
{"id": "C55", "title": "comment linters report exactly the elements without the required comment", "statement": "Each linter that requires comments (golang style or complete sentence) on enums, enum values, messages, fields, services and RPCs reports exactly the elements whose comment is missing or not of the required form; the C-style and inline comment linters report exactly the forbidden comments, anywhere in the file.", "quantifier": "all parsed files", "why_tests_cant": "All ASTs and comment texts.", "anchors": ["internal/lint/check_*_have_comments.go", "internal/lint/check_*_have_sentence_comments.go", "internal/lint/check_comments_no_c_style.go", "internal/lint/check_comments_no_inline.go", "internal/lint/lint.go:hasGolangStyleComment", "internal/lint/lint.go:hasCompleteSentenceComment"]}
{"id": "C56", "title": "field linters report exactly the offending fields", "statement": "The linters about field names (file_name, file_path, descriptor), time and duration types and suffixes and the json_name option report exactly the offending fields of messages and oneofs.", "quantifier": "all parsed files", "why_tests_cant": "All ASTs.", "anchors": ["internal/lint/check_message_field_names_filename.go", "internal/lint/check_message_field_names_filepath.go", "internal/lint/check_message_field_names_no_descriptor.go", "internal/lint/check_message_fields_duration.go", "internal/lint/check_message_fields_time.go", "internal/lint/check_wkt_duration_suffix.go", "internal/lint/check_wkt_timestamp_suffix.go", "internal/lint/check_message_fields_no_json_name.go"]}
{"id": "C57", "title": "import, header, alias, reserved and RPC linters", "statement": "The linters about enum aliases, reserved declarations, the file header, forbidden, public, weak and indirect well-known imports, streaming RPCs and the API suffix report exactly the offending elements, once each.", "quantifier": "all parsed files, all map iteration orders", "why_tests_cant": "All ASTs.", "anchors": ["internal/lint/check_enums_no_allow_alias.go", "internal/lint/check_fields_not_reserved.go", "internal/lint/check_file_header.go", "internal/lint/check_gogo_not_imported.go", "internal/lint/check_imports_not_public.go", "internal/lint/check_imports_not_weak.go", "internal/lint/check_wkt_directly_imported.go", "internal/lint/check_rpcs_no_streaming.go", "internal/lint/check_service_names_api_suffix.go"]}
{"id": "C58", "title": "file option linters", "statement": "A linter that requires a file option reports a file exactly when no file-level option has that name; one that forbids an option reports its last declaration; one that fixes the value reports the last declaration exactly when the file has a package and the value is not the one derived from the package (or file name); options inside messages, services and enums are not looked at.", "quantifier": "all parsed files", "why_tests_cant": "All ASTs.", "anchors": ["internal/lint/check_file_options_required.go", "internal/lint/check_file_options_unset.go", "internal/lint/check_file_options_equal.go", "internal/lint/check_go_package_not_long_form.go"]}
{"id": "C59", "title": "package, syntax and service-file linters", "statement": "PACKAGE_IS_DECLARED, PACKAGE_MAJOR_BETA_VERSIONED, SYNTAX_PROTO3 and SERVICE_NAMES_MATCH_FILE_NAME report exactly: every declaration after the first, a missing declaration, and a first declaration that is not of the required form; several services in a file are all reported.", "quantifier": "all parsed files", "why_tests_cant": "All ASTs.", "anchors": ["internal/lint/check_package_is_declared.go", "internal/lint/check_package_major_beta_versioned.go", "internal/lint/check_syntax_proto3.go", "internal/lint/check_service_names_match_file_name.go"]}
{"id": "C60", "title": "option values derived from packages and file names", "statement": "For every dot-separated package the derived go_package, java_package, csharp_namespace, php_namespace and objc_class_prefix are built from its components as documented: last component + pb (last two for versioned packages), com. prefix, capitalized components, backslash separators, initials padded to three letters and never GPB.", "quantifier": "all packages", "why_tests_cant": "All strings.", "anchors": ["internal/protostrs/protostrs.go:GoPackage", "internal/protostrs/protostrs.go:GoPackageV2", "internal/protostrs/protostrs.go:CSharpNamespace", "internal/protostrs/protostrs.go:PHPNamespace", "internal/protostrs/protostrs.go:OBJCClassPrefix", "internal/protostrs/protostrs.go:JavaPackage", "internal/protostrs/protostrs.go:JavaOuterClassname"]}
{"id": "C61", "title": "a command given a directory is about the files below it only", "statement": "Given a directory, format, files, lint and compile concern exactly the discovered files below that directory; nothing outside is printed, linted or overwritten.", "quantifier": "all directory trees, configurations, arguments and map iteration orders", "why_tests_cant": "All trees and names.", "anchors": ["internal/exec/runner.go:format", "internal/exec/runner.go:Files", "internal/lint/lint.go:getDirPathToDescriptors"]}
{"id": "C62", "title": "lint: exit code and output agree", "statement": "When the files compile, lint prints exactly the failures of the lint run that are about the argument, sorted, changes no file, and exits with 255 exactly when it printed a failure, otherwise with 0.", "quantifier": "all files, configurations, arguments and failure lists", "why_tests_cant": "All runs.", "anchors": ["internal/exec/runner.go:lint", "internal/exec/runner.go:Lint", "internal/exec/runner.go:printFailuresForErrorFormat"]}
{"id": "C63", "title": "files prints the discovered files", "statement": "The files command prints the display paths of exactly the files a command on that argument is about, sorted, one per line, each once, and changes nothing.", "quantifier": "all proto sets and map iteration orders", "why_tests_cant": "Map iteration order and all sets.", "anchors": ["internal/exec/runner.go:Files"]}
{"id": "C64", "title": "the listings of lint tell the truth", "statement": "--list-linters prints exactly the rules a lint run uses, --list-all-linters all documented rules, --list-lint-group the documented rules of the group and --list-all-lint-groups the documented groups, each sorted by name; unknown groups are refused.", "quantifier": "all configurations, groups and map iteration orders", "why_tests_cant": "All configurations.", "anchors": ["internal/exec/runner.go:listLinters", "internal/exec/runner.go:listAllLinters", "internal/exec/runner.go:listLintGroup", "internal/exec/runner.go:listAllLintGroups"]}
{"id": "C65", "title": "all is compile, format, generate and lint in turn", "statement": "all writes nothing unless the files compile to begin with; it ends well exactly if format --overwrite, generate and lint end well in turn, each on what the one before left; after it ended well every file it is about has its formatted text and a lint run finds nothing; a file that cannot be formatted keeps the plugins from running. With --disable-format the files are only compiled instead of formatted, and with --disable-lint they are not linted.", "quantifier": "all files, configurations, arguments and code generators", "why_tests_cant": "All runs and all points of failure.", "anchors": ["internal/exec/runner.go:All", "internal/exec/runner.go:format", "internal/exec/runner.go:compile", "internal/exec/runner.go:lint"]}
{"id": "C66", "title": "break check reports the comparison and leaves the files as they were", "statement": "break check prints the failures of comparing the stated older schema with the current one, sorted, one per line, exits with 255 exactly if there are any, and leaves every file as it was: the clone it compares with is gone afterwards, however the command ends.", "quantifier": "all schemas, repositories, arguments and failures of git", "why_tests_cant": "All failures of the steps in between.", "anchors": ["internal/exec/runner.go:BreakCheck", "internal/exec/runner.go:getPackageSetForCloneDir", "internal/git/git.go:TemporaryClone"]}
{"id": "C67", "title": "descriptor-set writes one merged set to the stated place", "statement": "descriptor-set writes the encoding of one set with every compiled file once, by name, to standard output, to the given path or to a new temporary file whose name it prints; no other file changes; nothing is created or emptied unless the files compile.", "quantifier": "all files, flags and failures of writing", "why_tests_cant": "All failures of writing and all descriptor sets.", "anchors": ["internal/exec/runner.go:DescriptorSet", "internal/exec/runner.go:BreakDescriptorSet", "internal/desc/desc.go:MergeFileDescriptorSets"]}
{"id": "C68", "title": "the package inspections tell the truth", "statement": "inspect packages prints every package of the compiled files once in order of names, inspect package-deps the packages the named one imports and inspect package-importers those that import it; an unknown name is an error; no file changes.", "quantifier": "all compiled schemas and map iteration orders", "why_tests_cant": "Map iteration order and all import graphs.", "anchors": ["internal/exec/runner.go:InspectPackages", "internal/exec/runner.go:InspectPackageDeps", "internal/exec/runner.go:InspectPackageImporters", "internal/extract/package_set.go:NewPackageSet"]}
{"id": "C69", "title": "break check compares the same directory of both trees", "statement": "Against a git branch, break check compares the files below the given directory with the files below the same directory of the clone, and refuses a directory outside the repository.", "quantifier": "all directory arguments and working directories", "why_tests_cant": "All relative paths.", "anchors": ["internal/exec/runner.go:BreakCheck"]}
{"id": "C70", "title": "a check against a descriptor set written before", "statement": "break check --descriptor-set-path with a file that break descriptor-set (without --json) wrote reports exactly what a comparison of the schema of then with the schema of now reports; as long as the definitions of each package stay the same, even if they move between files, it prints nothing and ends well.", "quantifier": "all schemas and everything that may happen in between", "why_tests_cant": "Every history between the two commands.", "anchors": ["internal/exec/runner.go:BreakDescriptorSet", "internal/exec/runner.go:BreakCheck", "internal/exec/runner.go:getPackageSetForDescriptorSetPath"]}
{"id": "C71", "title": "config init never overwrites", "statement": "config init changes no file but prototool.yaml of the given directory, never changes one that exists, and after it ended well that file has the generated configuration.", "quantifier": "all directories, arguments and failures of writing", "why_tests_cant": "All failures.", "anchors": ["internal/exec/runner.go:Init"]}
{"id": "C72", "title": "every compiled directory is below an include directory", "statement": "protoc is called for a directory only with an include list in which some directory is that directory or one above it, so that protoc can name its files.", "quantifier": "all configurations and directories below the configuration", "why_tests_cant": "All path combinations.", "anchors": ["internal/protoc/compiler.go:getIncludes"]}
{"id": "C73", "title": "protoc gets every file exactly once per output", "statement": "protoc is run for exactly the directories below the given one; for each of them once per plugin, once for a descriptor set, or once just to compile if there is nothing else to make; each run names exactly the files of its directory, the include list and the output of that plugin.", "quantifier": "all file sets, configurations and map iteration orders", "why_tests_cant": "All file sets and map orders.", "anchors": ["internal/protoc/compiler.go:getCmdMetas", "internal/protoc/compiler.go:getPluginFlagSet"]}
{"id": "C74", "title": "generated files land in the output directories", "statement": "The directory of every output exists before the plugins run and no other directory is made; a plugin that makes one file per directory makes it inside its output directory at the place the directory has below the configuration, and two directories never share a file.", "quantifier": "all file sets, plugins and map iteration orders", "why_tests_cant": "All directory trees.", "anchors": ["internal/protoc/compiler.go:makeGenDirs", "internal/protoc/compiler.go:getRelOutputFilePath"]}
{"id": "C75", "title": "an own protoc replaces the downloaded one", "statement": "If a protoc binary or a directory of well-known types is given, both must be given and exist, together with no download URL; then exactly these cleaned paths are used and nothing is downloaded. Otherwise the paths are bin/protoc and include in the cache directory.", "quantifier": "all flag values and file systems", "why_tests_cant": "All flag combinations and stat results.", "anchors": ["internal/protoc/downloader.go:newDownloader", "internal/protoc/downloader.go:ProtocPath", "internal/protoc/downloader.go:WellKnownTypesIncludePath"]}
{"id": "C76", "title": "cache delete removes the cache", "statement": "Deleting the cache removes everything that any version or URL has downloaded and the lock files, and exactly what is in the root of the cache.", "quantifier": "all flags, environments and versions", "why_tests_cant": "All paths and environments.", "anchors": ["internal/protoc/downloader.go:Delete", "internal/protoc/downloader.go:getBasePathNoVersionOSARCH", "internal/protoc/downloader.go:newFlock"]}
{"id": "C77", "title": "one call per grpc command", "statement": "If grpc accepts its flags and the files compile, then either it ends with an error without calling and prints nothing, or it makes exactly one call: to the given address and method, with the last header of each key, the given timeouts or their defaults, the given data, and the descriptors of the set of the service. There is no call if the library refuses one of the compiled files or the certificates, and there is one if the flags, the files and the credentials are all accepted. What is received is printed in order, empty messages not at all, headers, status and trailers only with details; the command ends well exactly if the call did and its status was OK. No file is ever changed.", "quantifier": "all flags, files, and behaviours of the server", "why_tests_cant": "All servers and responses.", "anchors": ["internal/exec/runner.go:GRPC", "internal/exec/runner.go:newGRPCHandler", "internal/grpc/handler.go:Invoke", "internal/grpc/invocation_event_handler.go:invocationEventHandler"]}
{"id": "C78", "title": "settings come from flags, else from the environment", "statement": "Every command uses the cache path, the protoc binary and the well-known types given by its flags, or else by the environment variables PROTOTOOL_CACHE_PATH, PROTOTOOL_PROTOC_BIN_PATH and PROTOTOOL_PROTOC_WKT_PATH; all other settings come from the flags alone. A command does nothing but report an error if the walk timeout is no duration or there is no working directory.", "quantifier": "all flags and environments", "why_tests_cant": "All combinations of flags and variables.", "anchors": ["internal/cmd/templates.go:getRunner", "internal/cmd/flags.go:flags"]}
{"id": "C79", "title": "cache delete leaves custom caches alone", "statement": "`prototool cache delete` removes the default cache of the platform and nothing else; custom caches are never removed. If it does not end with exit code 0, nothing is removed.", "quantifier": "all environments, files and command lines", "why_tests_cant": "All environments and file systems.", "anchors": ["internal/cmd/templates.go:cacheDeleteCmdTemplate", "internal/exec/runner.go:CacheDelete", "internal/protoc/downloader.go:Delete"]}
{"id": "C80", "title": "commands that only read change no file", "statement": "compile, files, grpc, the inspect commands, lint, version, format without overwrite, generate --dry-run, and descriptor-set without an output leave every file as it is, however they end.", "quantifier": "all arguments, flag values, files and outcomes", "why_tests_cant": "All file systems and failures.", "anchors": ["internal/cmd/templates.go", "internal/exec/runner.go"]}
{"id": "C81", "title": "flags mean the same in every order", "statement": "A command line is refused without running anything exactly if it has a flag that the command does not have or a wrong number of arguments. The last value of a flag counts, headers accumulate, and a flag that is not given has its default, for every command. No command has two flags with the same name or letter. A value given under a name is the value of the setting of that name, and the commands have the flags that the documentation uses with them, and --debug.", "quantifier": "all commands, flag lists and argument counts", "why_tests_cant": "All lists of flags.", "anchors": ["internal/cmd/flags.go", "internal/cmd/templates.go", "internal/cmd/templates.go:cmdTemplate"]}
{"id": "C82", "title": "naming files absolutely or as given changes only the names in lint failures", "statement": "Whether files are named as they were given or by absolute paths, a lint run succeeds in the same cases and then the same rules complain about the same lines and columns of the same files, equally often.", "quantifier": "all configurations, proto sets, file contents and rules", "why_tests_cant": "All rules on all files under both names.", "anchors": ["internal/lint/runner.go:Run", "internal/lint/lint.go", "internal/exec/runner.go:generateIgnores"]}
{"id": "C83", "title": "format --diff and --lint show exactly the changes", "statement": "`format --diff` prints for every file whose formatted text differs what `diff -u` says about the two texts, with only the two file names in the heading replaced, and nothing for other files; `format --lint` reports exactly those files. Both exit with 0 if there is no such file and with 255 if there is one, and neither they nor the temporary files leave any file changed or behind.", "quantifier": "all files, formatted texts, outputs of diff and failing file operations", "why_tests_cant": "All texts, all outputs of an external program and all failures on the way.", "anchors": ["internal/diff/diff.go:Do", "internal/diff/diff.go:replaceTempFilename", "internal/exec/runner.go:formatFile"]}
{"id": "C84", "title": "the generated configuration says what it should", "statement": "For every protoc version, the configuration written by `config init`, with or without documentation, sets the version of protoc and the lint group uber2 and nothing else: read back it gives the configuration that applies without a file, with these two settings. `--uncomment` gives the documented text with the markers of the examples removed and nothing else changed. The examples are settings that there are, as YAML with the keys of the configuration; together they are refused, because they give a header twice and add and remove the same rule, and without these two conflicts they are accepted in every directory.", "quantifier": "all versions and both flags", "why_tests_cant": "All versions; the two templates must agree in what they set.", "anchors": ["internal/cfginit/cfginit.go:Generate", "internal/exec/runner.go:Init", "internal/settings/config_provider.go:externalConfigToConfig"]}
{"id": "C85", "title": "a command that compiles ends well only if protoc accepted the files", "statement": "Unless prototool is stopped by a signal, compile ends with 0 exactly if the argument names a directory or file, all protoc commands can be made and each run ends with status 0 and reports nothing that is not ignored; generate in addition only if every plugin did so for every directory. Every command that goes on after compiling had protoc accept every directory below that of the argument with all its files. If protoc objects, compile prints what all runs said, sorted, and ends with 255. `--dry-run` prints exactly the command lines that are run without it.", "quantifier": "all file sets, configurations, map iteration orders, schedules of the concurrent runs, and behaviours of protoc", "why_tests_cant": "All behaviours of an external program under all schedules.", "anchors": ["internal/exec/runner.go:Compile", "internal/exec/runner.go:Gen", "internal/exec/runner.go:doCompile", "internal/exec/runner.go:doProtocCommands", "internal/protoc/compiler.go:Compile", "internal/protoc/compiler.go:ProtocCommands"]}
{"id": "C86", "title": "two runs of a command on the same files do the same", "statement": "Two runs of files, compile, generate, format, all, create, grpc, lint (with every flag), descriptor-set, break check, break descriptor-set and the inspections on the same files leave the same files, print the same text and end with the same code, whatever the order in which Go iterates over maps, the schedule of the protoc processes and the names of temporary files.", "quantifier": "all file sets, configurations, map iteration orders in both runs, schedules of the concurrent protoc runs, temporary file names, and behaviours of protoc, plugins and servers that do not themselves depend on these", "why_tests_cant": "Go does not fix the order of map iterations and goroutines; a test sees one of them.", "anchors": ["internal/exec/runner.go", "internal/file/proto_set_provider.go:getBaseProtoSets", "internal/protoc/compiler.go:Compile", "internal/lint/runner.go:Run", "internal/desc/desc.go:SortFileDescriptorSet", "internal/reflect/reflect.go:NewPackageSet", "internal/extract/extract.go:NewPackageSet", "internal/create/handler.go:getPkg", "internal/grpc/handler.go:getServiceInfo"]}
{"id": "C87", "title": "the formatted text declares what the file declares", "statement": "The text format prints, read back by the grammar of protobuf, gives the declarations of the file: the same syntax, package, options, imports, messages, fields, enums, services and RPCs with the same names, types, numbers, labels and values. Only the order of options and imports changes. With --fix it gives the file with the managed options replaced, below a header that is made of comments. The text of a file that create writes reads as its syntax, package and options.", "quantifier": "all files whose names, values and labels the grammar allows, all file headers, names of files and Java prefixes without quotes, backslashes and newlines, and all implementations of sort.Slice", "why_tests_cant": "A test compares the text for some files; that quoting, spacing, comments and option lists never change the tokens of a file has to hold for every nesting and every name and value.", "anchors": ["internal/format/transformer.go:Transform", "internal/format/main_visitor.go", "internal/format/first_pass_visitor.go", "internal/format/base_visitor.go", "internal/create/handler.go:Create"]}
{"id": "C88", "title": "following what a lint message proposes satisfies the rule", "statement": "The reports of the rules that propose something (names of fields with file_name and file_path, prefixes and zero values of enums, request and response names, comments of a given form, values of file options, the file name of a service, the API suffix, reserved declarations) name the declaration they are reported at and the value the rule wants, and a file in which the proposals are followed is not reported by that rule any more.", "quantifier": "all lists of parsed files, with declarations at any depth and any names and values", "why_tests_cant": "A test compares a message for some file; that a proposed name is always accepted by the rule that proposed it needs an argument about replacing text in any name.", "anchors": ["internal/lint/check_message_field_names_filename.go", "internal/lint/check_message_field_names_filepath.go", "internal/lint/check_enum_field_prefixes.go", "internal/lint/check_enum_zero_values_invalid.go", "internal/lint/check_request_response_names_match_rpc.go", "internal/lint/check_enums_have_comments.go", "internal/lint/check_file_options_equal.go", "internal/lint/check_service_names_match_file_name.go", "internal/lint/check_service_names_api_suffix.go", "internal/lint/check_fields_not_reserved.go"]}
{"id": "C89", "title": "format keeps every comment", "statement": "The comments of the formatted text are the comments of the file, each once and none more: the comment above a declaration, the comments by themselves, and the comment behind a statement, at any depth. Only slashes in front and white space at the end of a line change. A comment is between the same declarations as before, in the order in which the formatter prints the declarations. With --fix the comments at the top of the file are replaced by the header, and the comments of the options that stay are kept.", "quantifier": "all files whose names, values and labels the grammar allows, with comments at any depth, all headers, and all implementations of sort.Slice", "why_tests_cant": "A test looks at the comments of some files; that none is lost, doubled or swallowed by a string or another comment needs an argument over every nesting and every text.", "anchors": ["internal/format/base_visitor.go:PWithInlineComment", "internal/format/base_visitor.go:PComment", "internal/format/main_visitor.go", "internal/format/first_pass_visitor.go", "internal/format/transformer.go:Transform"]}
{"id": "C90", "title": "formatting a file gives lint nothing new to report", "statement": "If the files of a directory are formatted, every lint rule reports at most as many failures for the formatted files as for the files before; a rule that does not look at comments reports exactly as many. So files that pass lint still pass after format.", "quantifier": "all lint rules, all directories of files whose declarations the grammar allows, all orders in which sort.Slice may leave equal elements", "why_tests_cant": "Tests run lint and format on files made for one of the two; whether the order, the lines and the comments that format changes matter to one of the hundred rules has to be argued for each rule over all files.", "anchors": ["internal/format/transformer.go:Transform", "internal/format/first_pass_visitor.go", "internal/format/main_visitor.go", "internal/lint/lint.go:AllLinters", "internal/lint/lint.go:hasGolangStyleComment", "internal/lint/check_request_response_types_after_service.go"]}
{"id": "C91", "title": "lint accepts the files that create writes", "statement": "The rules of the configured lint group report nothing about files that create has written, exactly if the names are to the liking of the group: for uber2 the file name is lower_snake_case, the package is in lower case, has a version, has no component that is a keyword and none of the words common, data and uuid in it, and the configured header has no C style comment; for uber1 the package is lower_snake_case apart from the periods, the header has no C style comment and no Java package prefix other than com is configured; for google and empty always. The packages create uses by default satisfy this. So lint after create prints nothing and succeeds, whatever rules are excluded and whatever files are ignored.", "quantifier": "all lint groups, all directories of created files in one package, all paths, packages, headers and Java package prefixes, all excluded rules and ignored files, all orders in which maps are iterated", "why_tests_cant": "A test creates a file and lints it for a handful of names; that none of the hundred rules has anything to say, and exactly for which names, needs an argument about each rule over all packages and paths.", "anchors": ["internal/create/handler.go:Create", "internal/create/handler.go:tmplV2", "internal/lint/lint.go:Uber1Linters", "internal/lint/lint.go:Uber2Linters", "internal/lint/runner.go:Run", "internal/protostrs/protostrs.go"]}
{"id": "C92", "title": "what lint says about a file does not depend on how it was asked", "statement": "Given the file, its directory or any other directory under the same configuration file (or configuration data), lint prints the same lines about the file. They depend on the configuration and the files in the same directory only, and, but for the rules that compare the files of a directory, on that file only: editing or adding files elsewhere changes nothing. Lint prints lines only about files it was asked about and only under rules the configuration asks for, and if it succeeds for a directory it succeeds for every directory below it. Likewise format --overwrite leaves the same text in a file whichever way it was given.", "quantifier": "all pairs of files and directories governed by the same configuration, all directory trees and configurations, all contents, all edits of other files, all map orders", "why_tests_cant": "Tests lint fixed directories one way; that each of the hundred rules keeps nothing from one file or directory to the next, for every tree and way of asking, takes an argument about all rules and about discovery.", "anchors": ["internal/lint/runner.go:Run", "internal/lint/lint.go:GetDirPathToDescriptors", "internal/lint/lint.go:CheckMultiple", "internal/file/proto_set_provider.go:GetForDir", "internal/exec/runner.go:Lint", "internal/exec/runner.go:getMeta", "internal/exec/runner.go:printFailuresForErrorFormat"]}
{"id": "C93", "title": "data still reads the same after a change that break check passes", "statement": "If break check reports nothing, every encoded message that the old schema fully knows is read with the new schema exactly as with the old one, at every nesting depth, in the binary encoding and in every encoding that tells fields apart by number or name, and is accepted. In the other direction a reader with the old schema can read the bytes written under the new one, sees the same values, and only added fields and enum names are unknown to it. So clients built before the change can call servers built after it.", "quantifier": "all pairs of schemas, all break check configurations, all messages and all byte strings, all map orders", "why_tests_cant": "Tests check that listed edits are reported; that no unreported edit can change what is read from any stored or sent data needs a definition of reading and an induction over the data.", "anchors": ["internal/breaking/runner.go:Run", "internal/breaking/breaking.go:AllCheckers", "internal/breaking/check_message_fields_same_type.go:checkMessageFieldsSameType", "internal/breaking/check_message_fields_same_label.go:checkMessageFieldsSameLabel", "internal/breaking/check_enum_values_same_name.go:checkEnumValuesSameName", "docs/breaking.md"]}
{"id": "C94", "title": "a clean check means stable packages rest on stable packages only", "statement": "After a break check with the default configuration that reports nothing, no file of a stable package imports a file of a beta package, directly or by way of other imports, and no field or method of a stable package uses a message or enum of a beta package, not even one that a public import makes visible. If some stable file does, the check reports something. Hence, over a history of versions that each pass the check, data of stable packages always reads the same in the next version.", "quantifier": "all descriptor sets that protoc produces, all import graphs, all histories of versions, all map orders", "why_tests_cant": "The check looks only at direct imports between packages; that this covers all transitive and public imports is an induction over import chains of any length.", "anchors": ["internal/breaking/check_packages_no_beta_deps.go:checkPackagesNoBetaDeps", "internal/reflect/reflect.go:populateDependencies", "internal/extract/extract.go:NewPackageSet", "docs/breaking.md"]}
{"id": "C95", "title": "the program does what its command line says", "statement": "For every command, the exit code, the output and the files that the program leaves are those of the operation the command names, with the settings of the last value of each flag, and otherwise the value of the environment or the documented default: --dry-run runs nothing, --diff, --lint and --overwrite of format, --address, --method, --data, --stdin, --header and the timeouts of grpc, the descriptor set and git branch of break check, --package of create, --uncomment and --document of config init, the cache, protoc and well-known types paths each reach the operation they are for. all is format --overwrite, generate and lint in turn. Findings and compile errors are printed and give the exit code 255.", "quantifier": "all command lines that are accepted, all environments, files and operations", "why_tests_cant": "All combinations of flags, for all commands.", "anchors": ["internal/cmd/templates.go:cmdTemplate", "internal/cmd/cmd.go:do", "internal/cmd/flags.go:bindings", "internal/exec/runner.go"]}
{"id": "C96", "title": "JSON output can be read back", "statement": "What lint, compile and break check print with --json is one JSON object per line. Reading the objects gives exactly the failures that were found and are to be shown, with file, line, column, rule and message, in order, whatever characters names and messages contain. version --json is a JSON object with the versions and the platform. The lines of the default text format can be read back as well if no file name has a colon and no name or message a line break.", "quantifier": "all failures with any characters in their names and messages, all command lines with --json", "why_tests_cant": "Quotes, control characters, line breaks and characters outside ASCII can be anywhere in names, comments and messages of protoc.", "anchors": ["internal/text/text.go:Failure", "internal/exec/runner.go:printFailuresForErrorFormat", "internal/exec/runner.go:Version"]}
{"id": "C97", "title": "format leaves each comment on its declaration", "statement": "In the formatted text the comment above a declaration is still directly above that declaration, the comment behind a statement is still on the line of that statement, and a comment by itself is still by itself, at any depth. Reading the text with its comments, the ones on lines above a declaration for the declaration and the one behind it on its line for it too, gives the declarations of the file with their comments, in the order in which the formatter prints them. With --fix it gives the file with the managed options replaced. If names are distinct, formatting what is read gives the same text again.", "quantifier": "all files whose names, values and labels the grammar allows, with comments of any number of lines above declarations and comments of one line behind them, at any depth, and all implementations of sort.Slice", "why_tests_cant": "A comment is on its declaration by the lines it is printed on and the empty lines around it. Whether every nesting and every neighbour leaves it there has to be argued over all files.", "anchors": ["internal/format/base_visitor.go:PWithInlineComment", "internal/format/base_visitor.go:PComment", "internal/format/main_visitor.go", "internal/format/first_pass_visitor.go", "internal/format/transformer.go:Transform"]}
{"id": "C98", "title": "format depends only on declarations and comments", "statement": "The formatted text is determined by the declarations of the file and their comments. Positions, spacing, whether a comment is written with // or /* */, and the order of imports and options do not matter, and two files are formatted to the same text exactly if they have the same declarations and comments in the order in which the formatter prints them. So formatting a formatted text gives that text, wherever the parser says its declarations are.", "quantifier": "every pair of files, with or without --fix and a file header, every implementation of sort.Slice", "why_tests_cant": "Tests compare the output for chosen files; that two different files never end up as one text, and that no way to lay out a file shows in the output, is about all pairs.", "anchors": ["internal/format/transformer.go: Transform", "internal/format/first_pass_visitor.go: Do", "internal/format/main_visitor.go", "internal/format/base_visitor.go"]}
{"id": "C99", "title": "a configuration in JSON is read strictly", "statement": "A configuration in JSON, in a prototool.json or given with --config-data, must be one JSON value with the documented names, each at most once, and with values of the documented kinds. Then the settings are exactly the ones written, and those left out have their default. Every other text is an error. All settings can be given in this way, and a text on the command line means what the same text means in a prototool.json in the working directory.", "quantifier": "every text, every JSON value, every set of settings, every directory", "why_tests_cant": "Tests decode chosen files. That no other text is accepted, that no setting is stored in the place of another one and that every setting can be expressed is about all texts.", "anchors": ["internal/settings/settings.go: ExternalConfig", "internal/settings/config_provider.go: jsonUnmarshalStrict, GetForData, GetExcludePrefixesForData, getExternalConfig"]}
{"id": "C100", "title": "lint rules do not depend on one another", "statement": "What lint reports under the name of a rule does not depend on which other rules run, on the ignores of other rules, or on settings that are not about this rule. Taking rules away leaves exactly the failures of those that stay, a rule that runs alone reports what it reports among others, and the failures of a run are those of its rules alone.", "quantifier": "all sets of parsed files, all configurations, all rules", "why_tests_cant": "A test runs some rules on some files. That no rule influences another, for example by a shared visitor or a shared map, concerns all combinations of rules and settings.", "anchors": ["internal/lint/runner.go: Run", "internal/lint/lint.go: CheckMultiple, GetLinters", "internal/lint/base_linter.go: Check", "internal/settings/settings.go: LintConfig"]}
{"id": "C101", "title": "a stopped command does no harm that cannot be repaired", "statement": "If format, all, create, config init, descriptor-set -o or break descriptor-set is killed at any moment, every file is as it was or as the command would have left it, and the command started again ends as it would have ended without the interruption. create never touches a file with content, at no moment of its run, and the commands that write a descriptor set touch nothing but their output.", "quantifier": "every moment of every run of the commands that write files, every tree of files, every configuration", "why_tests_cant": "A test does not kill the program. The moments at which it can be killed are between and in all the writes of all runs.", "anchors": ["internal/exec/runner.go: formatFile", "internal/create/handler.go: Create, checkFilePath, create", "internal/exec/runner.go: All, Init, DescriptorSet, BreakDescriptorSet"]}
{"id": "C102", "title": "break check judges every package by itself", "statement": "Every failure of break check is due to one package that changed: it is reported in every comparison in which this package is the same before and the same after, whatever the other packages are. Packages that did not change are never the reason of a failure. A change made in two steps by whole packages breaks exactly what the two steps break. The check of dependencies on beta packages is about the new schema alone.", "quantifier": "every two schemas that protoc accepts, every third schema on the way, both beta settings, every map order", "why_tests_cant": "Tests compare chosen schemas. That failures do not depend on the rest of the schema is about all pairs of comparisons with a package in common.", "anchors": ["internal/breaking/runner.go: Run", "internal/breaking/helpers.go: forEachPackagePair", "internal/extract/extract.go: PackageSet"]}
{"id": "C103", "title": "runs of format at the same time do not harm each other", "statement": "Any number of runs of format --overwrite can go on at the same time, on the same files, together with programs that only read. At every moment every file is as it was or formatted, a run that has ended well has formatted all its files, and when all have ended the disk is the one that a run after the other leaves. No schedule goes on for ever.", "quantifier": "every schedule of the steps of every number of runs, every tree of files, every formatter result, every process killed at any moment", "why_tests_cant": "A test meets one schedule, and the bad one needs a read between two system calls of another process", "anchors": ["internal/exec/runner.go: Format, format, formatFile"]}
{"id": "C104", "title": "results do not depend on where the tree is", "statement": "A directory tree of proto files can be moved, or checked out at another place. If its configurations name only places of the tree by relative paths, and the root has a configuration or none above it has one, the commands find the same files, show them in the same way and use the same settings at both places.", "quantifier": "every tree, every two places, every configuration with relative paths that stay in the tree, every working directory and directory argument in the tree, every map order", "why_tests_cant": "Tests run in one checkout. Absolute paths are used inside for prefix tests, excludes, ignores and map keys, and a dependence on what the path above the tree looks like shows only at some other place.", "anchors": ["internal/file/proto_set_provider.go: GetForDir, walkAndGetAllProtoFiles", "internal/settings/config_provider.go: externalConfigToConfig, GetForDir, GetExcludePrefixesForDir", "internal/file/file.go: IsExcluded"]}
{"id": "C105", "title": "a lint message names the declaration it is about and says what is wrong with it", "statement": "Every lint rule has a fixed text: for every file (or directory of files) the failures of the rule are at the declarations that break it, and each message is exactly the documented wording with the name, type, option or list of values of that very declaration in it. The messages of rules that can be suppressed end with the hint how to suppress them exactly if the configuration allows suppression, and following the hint does suppress the failure. The messages about directories list all values found, each once, in ascending order.", "quantifier": "all lint rules that propose nothing (the others are in C88), all files or grammatical files, all directories, all configurations and all iteration orders", "why_tests_cant": "The tests of the linter compare positions and rule names of a few files and never look at the messages; a message that quotes the wrong declaration, the wrong rule's wording or a partial list of values would pass them.", "anchors": ["internal/lint/check_*.go", "internal/lint/base_linter.go:Check", "internal/lint/base_visitor.go:AddFailuref"]}
{"id": "C106", "title": "create and config init overwrite nothing, whatever runs at the same time", "statement": "create and config init never change a file with content, also if other runs of them and other programs work on the same files at the same time. At every moment every file they make is as it was, empty, or has its whole text; when the runs have ended it is as it was or whole, and whole if one of them ended well.", "quantifier": "all numbers of runs of create and config init, all programs beside them, all schedules, all moments (so also all points at which a run can be killed)", "why_tests_cant": "Tests run one command at a time. Both commands check for the file first and write it later, so what happens depends on what other programs do in between.", "anchors": ["internal/create/handler.go:Create", "internal/create/handler.go:checkFilePath", "internal/exec/runner.go:Init"]}
{"id": "C107", "title": "a refused configuration is told what is wrong with it", "statement": "When a configuration is refused, the message is the text of a fault the configuration really has, with the offending value in it: an exclude that is the configuration's own directory or outside it, a plugin without output, of an unknown type, with a dotted suffix, with a setting that belongs to descriptor_set, with the protoc-gen- prefix or lacking an import path, a package without directory or name or with an absolute directory, a file header given twice, by absolute path, unreadable or empty, suppression, or rules both added and removed (all of them listed, in order). The groups of faults are checked in this order, and nothing is said of a later group while an earlier one has a fault. A configuration is refused exactly if it has one of these faults. For a directory, the message is about the nearest configuration file: that there are two (both named), that it can not be read or parsed, or that it has a fault; the default configuration is never refused.", "quantifier": "Every configuration, every directory, every file system and every sorting of the plugins", "why_tests_cant": "The combinations of faults are unbounded, and which of several faults is reported depends on the order of the checks and on an unstable sort; tests look at single faults and mostly only at whether there was an error", "anchors": ["internal/settings/config_provider.go:externalConfigToConfig", "internal/settings/config_provider.go:getExcludePrefixes", "internal/settings/config_provider.go:getSingleFilePathForDir", "internal/settings/config_provider.go:getExternalConfig", "internal/settings/settings.go:ParseGenPluginType"]}
{"id": "C108", "title": "listings of lint rules can be read back and are true", "statement": "Reading what the three listing flags of lint (the rules that would run, all rules, the rules of a group) print gives exactly the rules asked for, in increasing order, each beside its own description: lines are aligned two blanks after the longest name and no name or text is cut, joined or lost. No two rules share a description. A description that names an annotation names one that works: the rule drops what it finds exactly where the comment has that annotation; a rule whose description names none drops nothing. The lines of version can be read back the same way.", "quantifier": "All configurations with known rule names, all groups, all comments and failures, all row lengths of a table, all map orders and sorts.", "why_tests_cant": "Tests compare one listing with a stored text; they do not relate a description to what the rule does, and the layout depends on the longest name of each listing.", "anchors": ["internal/exec/runner.go:printLinters", "internal/exec/runner.go:newTabWriter", "internal/exec/runner.go:Version", "internal/lint/base_linter.go:Purpose", "internal/lint/lint.go:AllLinters"]}
{"id": "C109", "title": "a history of command lines changes only what one of its lines is about", "statement": "Run any number of command lines one after the other, with the environment, the settings and the rest of the system changing in between. If something at a path is different afterwards, then one of the lines may change that path: format with --overwrite or all that look at this file, generate or all whose plugins make it, create or config init for a path with nothing in it, descriptor-set or break descriptor-set with this output, break check in its own temporary clone, or one of the cache commands in the cache. A file with content keeps it through every history of lines that look at the files, create files or make a configuration file. What a line does, prints and ends with depends on the files alone and not on what was printed or written before, so lines that only look at the files can be repeated, left out and reordered without any effect on the others.", "quantifier": "all lists of command lines with all flags and arguments, all systems in between, all files, all outcomes of the single lines", "why_tests_cant": "a test runs a few commands in one order; which of all the histories of eighteen commands and their flags touch a file is a statement over an unbounded set", "anchors": ["internal/cmd/cmd.go:runRootCommand", "internal/cmd/templates.go:checkCmd", "internal/exec/runner.go:Format", "internal/exec/runner.go:All", "internal/exec/runner.go:DescriptorSet", "internal/exec/runner.go:BreakCheck", "internal/exec/runner.go:Init", "internal/create/handler.go:Create"]}
{"id": "C110", "title": "formatting is never a breaking change", "statement": "Formatting files, with --fix or without, with any other flags and however the run ends, changes nothing that break check looks at: what protoc makes of a formatted file is what it made of the file before, up to the order of the imports and to the options of the file. So break check against a given descriptor set reports the same before and after; and after break descriptor-set -o F and then format, break check --descriptor-set-path F prints nothing and ends well.", "quantifier": "All files whose parse trees fit the grammar, all flags of format, all ways it may end, all orders in which files are visited, all sorting algorithms, all ways protoc may resolve type names, all descriptor sets to compare with.", "why_tests_cant": "Tests format a few files and compare texts, or compare a few descriptor sets. None relates the two commands, and none can cover every file, every style of options and a run of format that stops after some files.", "anchors": ["internal/format/transformer.go:Transform", "internal/format/first_pass_visitor.go:Do", "internal/format/main_visitor.go:Do", "internal/exec/runner.go:Format", "internal/exec/runner.go:BreakCheck", "internal/exec/runner.go:BreakDescriptorSet", "internal/breaking/runner.go:Run"]}
{"id": "C111", "title": "a new file is formatted", "statement": "A file that create has just made is formatted: format --lint finds nothing to report about it, and format --overwrite, with --fix or without, leaves it as it is.", "quantifier": "All configurations, headers, lint groups, paths and packages, all lists of files created together, format with and without --fix, any order in which directories are gone through, any sorting.", "why_tests_cant": "The text comes from a template filled with the header, package and options of the configuration, and format works from the parsed file; that the two agree for every header, package and path cannot be sampled.", "anchors": ["internal/create/handler.go:create", "internal/create/handler.go:tmplV2", "internal/format/transformer.go:Transform", "internal/exec/runner.go:Format"]}
{"id": "C112", "title": "break check passes exactly if everything that was stated is still stated", "statement": "Take a schema as the set of single facts it states: that a package, message, oneof, enum or service exists, what number, name, label, type and oneof a field has, under which name an enum number is known, and what a method takes, returns and streams. break check ends well exactly if every fact the old schema states about a checked package is stated by the new one (and, in the default beta mode, no stable package depends on a beta package). Hence a change that is clean in both directions changes no fact, two old schemas that state the same accept the same changes, being clean against several schemas is being clean against all they state, and over a history of clean changes no fact that was ever stated is lost.", "quantifier": "all pairs of schemas, all histories of schemas, all facts, all iteration orders, both beta settings; descriptor sets and the command end to end", "why_tests_cant": "A test compares two schemas; the claim is an equivalence over all facts of all schemas and over histories of any length.", "anchors": ["internal/breaking/runner.go:Run", "internal/breaking/helpers.go:forEachMessagePair", "internal/exec/runner.go:BreakCheck", "internal/extract/extract.go:NewPackageSet"]}
{"id": "C113", "title": "an exclude takes out the files below it and nothing else", "statement": "Let one more path be added to the excludes of the configuration that governs the directory a command is given. The files found afterwards are those found before, in the order they had, without those at or below that path. Nothing else in the configuration changes, files prints what it printed without the excluded files, and lint says of every file that stays what it said before: under all rules for single files, and under the rules that compare the files of a directory too if no file of its directory went.", "quantifier": "all directory trees, configurations with any excludes and nested configurations, all relative paths that do not go up, working directories and arguments, all lint environments and iteration orders", "why_tests_cant": "Excludes of several configurations pile up during the walk, are compared as paths and not as texts, and prune whole directories; tests have a few trees with one or two excludes and never compare two configurations.", "anchors": ["internal/file/proto_set_provider.go:walkAndGetAllProtoFiles", "internal/file/file.go:IsExcluded", "internal/settings/config_provider.go:getExcludePrefixes", "internal/exec/runner.go:Files", "internal/lint/runner.go:Run"]}
{"id": "C114", "title": "files are found whenever nothing is wrong", "statement": "If no directory has two configuration files, every configuration file is accepted, the directories can be read and the files to be found are all governed by one configuration, then looking up the files of a directory succeeds.", "quantifier": "every directory tree, set of configuration files, working directory, directory asked for and iteration order of maps", "why_tests_cant": "A test shows that a lookup succeeds in one tree; whether some legal file name or directory makes it fail is a statement about all trees.", "anchors": ["internal/file/proto_set_provider.go:GetForDir", "internal/file/proto_set_provider.go:validateIsRel", "internal/file/proto_set_provider.go:getBaseProtoSets", "internal/settings/config_provider.go:GetFilePathForDir"]}
{"id": "C115", "title": "lint that runs while files are formatted says what it would say before or after", "statement": "Let lint run while any number of format --overwrite runs, and of other programs that only read, run too. It changes no file. What it prints and its exit code are those of a lint that runs by itself while every file is as it was or formatted. About every file it was asked about, it says what it would say if it ran before all the others, or what it would say if it ran after them; the rules that compare the files of a directory are included.", "quantifier": "all schedules, all numbers of runs and readers, all hosts, parsers, configurations, arguments and flags, all orders in which files are visited", "why_tests_cant": "A race shows itself under some schedules only, and tests run one command at a time.", "anchors": ["internal/exec/runner.go:Lint", "internal/exec/runner.go:formatFile", "internal/lint/lint.go:GetDirPathToDescriptors", "internal/lint/runner.go:Run"]}
{"id": "C116", "title": "a check passes exactly if there is nothing to repair", "statement": "format without a flag, with --lint or with --diff ends well exactly if format --overwrite would end well and change no file, so the three checks always agree. After a repair that ended well every check passes, whatever the order in which the files are visited: --lint, --diff and a second --overwrite print nothing and change nothing. After all has ended well, compile, the format checks and lint pass and print nothing, and a second all changes nothing. This is for files whose formatted text is formatted to itself, that compile once formatted, and that the plugins do not write to.", "quantifier": "every host, file tree, configuration, set of arguments, flags, file contents and order in which files are visited", "why_tests_cant": "A test compares a check and a repair on some files; that they never disagree is a statement about all files.", "anchors": ["internal/exec/runner.go:Format", "internal/exec/runner.go:formatFile", "internal/exec/runner.go:All", "internal/exec/runner.go:Lint"]}
{"id": "C117", "title": "checking a directory is checking its files one by one", "statement": "If the files of a directory are governed by the same configuration and compile, format in any of its modes ends well for the directory exactly if it ends well for each of its files asked for by name, and so does lint. Formatting the files one by one with --overwrite, in any order, ends well and leaves the same files as formatting the directory at once, if that ends well and every file keeps compiling on the way.", "quantifier": "every host, directory tree, configuration, way to name the files, flags, file contents and order in which files are visited or asked for", "why_tests_cant": "A test asks for some files in some order; that splitting up a run never changes its verdict is a statement about all trees.", "anchors": ["internal/exec/runner.go:Format", "internal/exec/runner.go:Lint", "internal/exec/runner.go:getMeta", "internal/exec/runner.go:formatFile", "internal/lint/runner.go:Run"]}
{"id": "C118", "title": "releases checked one after the other are compatible with all before", "statement": "If every release passes break check against the descriptor set that break descriptor-set wrote for the release before it, every release passes break check against the descriptor set of every earlier release, printing nothing and changing nothing. It does not matter whether the past is given as a branch of the repository or as the descriptor set written from it: break check prints the same, ends the same and leaves the same files.", "quantifier": "all histories of releases, schemas, hosts, arguments, configurations of break and iteration orders of maps, with any way for definitions to be spread over files", "why_tests_cant": "A test checks one release against another; that a chain of passed checks never hides a break is a statement about all histories.", "anchors": ["internal/exec/runner.go:BreakCheck", "internal/exec/runner.go:BreakDescriptorSet", "internal/exec/runner.go:getPackageSetForDescriptorSetPath", "internal/exec/runner.go:getPackageSetAndConfigForRelDirPath", "internal/git/git.go:TemporaryClone", "internal/breaking/runner.go:Run"]}
{"id": "C119", "title": "files lists what the other commands are about", "statement": "A file that format changes is one that files lists for the same argument. format --overwrite of a directory that ends well has formatted the file of every line that files prints. lint names listed files only. A compile that ends well has run protoc on listed files only, and every listed file was given to a run.", "quantifier": "every directory tree, configuration, working directory and argument, every flag of format, every order in which directories are gone through, every toolchain", "why_tests_cant": "A test runs the commands on one tree. That the listing and the walks of the other commands over the files agree has to hold for every tree, every exclude and every working directory the lines are relative to.", "anchors": ["internal/exec/runner.go:Files", "internal/exec/runner.go:format", "internal/exec/runner.go:lint", "internal/protoc/compiler.go:getCmdMetas", "internal/file/proto_set_provider.go:walkAndGetAllProtoFiles"]}
{"id": "C120", "title": "adding is never a breaking change", "statement": "If every package, message, enum and service of the older files is found in the newer files, under the same package and in any file, either unchanged or with fields, oneofs, enum values, methods, nested messages or nested enums added at any depth, break check ends well, prints nothing and changes nothing, whatever files, packages, messages, enums and services were added or moved. The only other thing it asks is that no stable package imports a beta package, unless include_beta or allow_beta_deps is set.", "quantifier": "all older and newer sets of files, configurations of break, iteration orders of maps, hosts and arguments, against a branch or a descriptor set", "why_tests_cant": "A test adds one thing to one schema; the claim is about every addition to every schema, at any depth, and about the files that definitions move between.", "anchors": ["internal/exec/runner.go:BreakCheck", "internal/breaking/runner.go:Run", "internal/reflect/reflect.go:NewPackageSet"]}
{"id": "C121", "title": "a new file breaks nothing", "statement": "After create has made files, protoc makes of every other file exactly what it made of it before, and break check of all files against a descriptor set of the files before ends well, prints nothing and changes nothing. The only thing asked is that no stable package imported a beta package before, unless include_beta or allow_beta_deps is set.", "quantifier": "all configurations, headers made of comments, lint groups, paths and packages, all lists of files created together, all sets of files that were there before, all ways for protoc to look up the names of types, iteration orders of maps and settings of break", "why_tests_cant": "A test creates one file beside one schema; that no new file changes how a name in another file is resolved, or what it is compared with, is a statement about all of them.", "anchors": ["internal/create/handler.go:Create", "internal/exec/runner.go:Create", "internal/exec/runner.go:BreakCheck", "internal/breaking/runner.go:Run", "internal/reflect/reflect.go:NewPackageSet"]}
{"id": "C122", "title": "tending the files breaks nothing", "statement": "However often files are created and formatted, in any order and with any flags, and whatever else happens meanwhile that leaves the sources alone, break check of the files against what they were at any time before ends well, prints nothing and changes nothing, with a descriptor set as well as with a branch of the repository. The only thing asked is that no stable package imported a beta package, unless include_beta or allow_beta_deps is set.", "quantifier": "all sequences of create and format runs, of any length, each on its own host and with its own configuration, flags, paths and outcome of format, all files that fit the grammar, all settings of break and iteration orders of maps", "why_tests_cant": "A test runs one command on one schema; that nothing is lost or broken in a sequence of any length is an induction over the sequence.", "anchors": ["internal/create/handler.go:Create", "internal/exec/runner.go:Format", "internal/exec/runner.go:BreakCheck", "internal/breaking/runner.go:Run"]}
{"id": "C123", "title": "break check passes exactly if the files still say all that was said", "statement": "Read off the descriptors of the files alone: break check against a descriptor set or a branch ends well exactly if every package, message, field (number, name, label, type, oneof), oneof, enum, enum value, service and method that a file declared in a package that is checked is still declared, by some file of that package, and no stable package imports a beta package (unless include_beta or allow_beta_deps is set). Otherwise it ends with code 255.", "quantifier": "all pairs of sets of files that protoc accepts and whose enums have no aliases, nested to any depth and split over files in any way, all settings of break, iteration orders of maps and ways to sort", "why_tests_cant": "A test has a list of edits; that the check misses nothing and reports nothing else is an equivalence over all pairs of schemas.", "anchors": ["internal/exec/runner.go:BreakCheck", "internal/breaking/runner.go:Run", "internal/reflect/reflect.go:NewPackageSet", "internal/extract/extract.go:NewPackageSet"]}
{"id": "C124", "title": "what is removed from the sources is noticed", "statement": "Read off the sources: if break check of the files against the files as they were before, in a descriptor set or on a branch, ends well, every message, enum and service that a source declared outside of messages, in a package that is checked, is still declared in that package, in whatever file. If one of them is gone or has moved to another package, the check ends with code 255.", "quantifier": "all sources before and after, however they are spread over files, all ways for protoc to look up the names of types, hosts, arguments, configurations of break and iteration orders of maps", "why_tests_cant": "A test removes one declaration from one schema; that no removal slips through is a statement about all sources.", "anchors": ["internal/exec/runner.go:BreakCheck", "internal/breaking/runner.go:Run", "internal/reflect/reflect.go:NewPackageSet"]}
{"id": "C125", "title": "what is removed from inside a definition is noticed", "statement": "Read off the sources: if break check of the files against the files as they were before, in a descriptor set or on a branch, ends well, then every message, field (with its number and its name), oneof, enum, enum value (if no enum has aliases) and method that a source declared in a package that is checked, at whatever depth of messages and groups, is still declared at the same place of that package, in whatever file. If one of them is gone, renamed, renumbered or moved, the check ends with code 255.", "quantifier": "all sources before and after, nested to any depth and spread over files in any way, all ways for protoc to look up the names of types, hosts, arguments, configurations of break and iteration orders of maps", "why_tests_cant": "A test removes one declaration from one schema; that no removal at any depth slips through is a statement about all sources.", "anchors": ["internal/exec/runner.go:BreakCheck", "internal/breaking/runner.go:Run", "internal/reflect/reflect.go:NewPackageSet"]}
{"id": "C126", "title": "a field with another label or in another oneof is noticed", "statement": "Read off the sources: if break check of the files against the files as they were before, in a descriptor set or on a branch, ends well, then every field that a source declared in a package that is checked, at whatever depth of messages and groups, still has its label (groups aside) and is still in the oneof it was in, or still in none. If a field became repeated, stopped being repeated, or moved into, out of or between oneofs, the check ends with code 255.", "quantifier": "all sources before and after, nested to any depth and spread over files in any way, with any number of oneofs in a message, all ways for protoc to look up the names of types, hosts, arguments, configurations of break and iteration orders of maps", "why_tests_cant": "A descriptor gives the oneof of a field as a position in a list, so the place depends on every oneof declared before; a test has a few layouts, the claim is about all of them.", "anchors": ["internal/exec/runner.go:BreakCheck", "internal/breaking/runner.go:Run", "internal/reflect/reflect.go:NewPackageSet"]}
{"id": "C127", "title": "a method that streams something else is noticed", "statement": "Read off the sources: if break check of the files against the files as they were before, in a descriptor set or on a branch, ends well, then every method that a source declared in a package that is checked is still declared in the service of that name, in whatever file of the package, and streams its requests and its responses exactly if it did before. If a stream was added to or taken from a method, the check ends with code 255.", "quantifier": "all sources before and after, spread over files in any way, all ways for protoc to look up the names of types, hosts, arguments, configurations of break and iteration orders of maps", "why_tests_cant": "A test changes one method of one service; that no change of a stream slips through is a statement about all sources.", "anchors": ["internal/exec/runner.go:BreakCheck", "internal/breaking/runner.go:Run", "internal/reflect/reflect.go:NewPackageSet"]}
{"id": "C128", "title": "a field with another builtin type is noticed", "statement": "Read off the sources: if break check of the files against the files as they were before, in a descriptor set or on a branch, ends well, then every field that a source declared with a builtin type (such as string, int32 or bytes) in a package that is checked, at whatever depth of messages and groups, keys and values of maps included, is still declared with that very type. If such a field got another type, even one with the same encoding, the check ends with code 255.", "quantifier": "all sources before and after, nested to any depth and spread over files in any way, all builtin types, all ways for protoc to look up the names of other types, hosts, arguments, configurations of break and iteration orders of maps", "why_tests_cant": "A test changes one type of one field; that no pair of types and no place slips through is a statement about all sources.", "anchors": ["internal/exec/runner.go:BreakCheck", "internal/breaking/runner.go:Run", "internal/breaking/check_message_fields_same_type.go:checkMessageFieldsSameType"]}
