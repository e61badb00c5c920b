# A Lean 4 model of prototool

## 1. What this is

`/verif/lean` is a Lake project with a model of the Go sources in `/repo` and
theorems about it. The properties are listed in `properties.jsonl`; the theorem
names proved for each are in `MANIFEST.json`; mutation experiments are in
`seeded/LOG.jsonl`.

Layout (all modules below `lean/Verif/`):

| directory  | content |
| ---------- | ------- |
| `Go/`      | the small part of Go and its standard library the code uses: strings, sorting, maps with arbitrary iteration order, `path/filepath` |
| `Model/`   | the model, one file per Go package, each definition citing the Go lines it models |
| `Spec/`    | small specifications written without the model's helpers |
| `Proof/`   | helper lemmas |
| `Props/`   | the property theorems, each followed by a non-vacuity example |

## 2. Modelling conventions

* **Strings** are `Str = List Char`, i.e. valid UTF-8. Go orders strings by
  bytes; UTF-8 preserves code point order, so the model compares code points.
  Strings that are not valid UTF-8 are out of scope.
* **Case mapping** (`strings.ToUpper/ToLower/Title`) is the ASCII mapping.
  Protobuf identifiers, rule names and package names are ASCII.
  Non-ASCII letters are left unchanged by the model (Go would map some).
* **Errors** are values (`Except Err α`). Where the text of an error does not
  matter for a property it is kept as a short tag.
* **Panics** (nil dereference) are an explicit outcome where the code can reach
  one.
* **Maps** are association lists with distinct keys. Every `range` over a Go map
  takes its order from an arbitrary permutation oracle that is a parameter of the
  model, so theorems hold for every iteration order.
* **`sort.Slice`** is unstable. Where ties are possible the model uses an
  arbitrary sorting function characterised only by "sorted permutation", or the
  theorem states that there are no ties.
* **Goroutines and processes** are step relations on an explicit state.
* **External calls** (protoc, git, the file system, the emicklei/proto parser,
  protobuf marshalling, SHA-256, YAML/JSON decoding, HTTP, zip) are parameters. JSON
  encoding of failures and versions is modelled (`Go/Json`).

## 3. Trusted base

* Lean 4.33.0's kernel, and the axioms `propext`, `Classical.choice`,
  `Quot.sound`. These are all axioms any theorem depends on (`#print axioms`; `vcheck`
  replays every module). No own axioms, `sorry`, `native_decide`, `bv_decide`.
* The correspondence between the Go text and the model, which is by reading;
  every definition cites its lines and says where it simplifies.
* The parameters of the model. Each is a field of a structure, so the theorems
  hold for every value of it; a theorem that needs something of a parameter has a
  hypothesis that says so, and a sample value beside it that meets the hypothesis.

| parameter | stands for | assumed |
| --------- | ---------- | ------- |
| `Order` (`Go/Map`) | the order of every `range` over a map, by place in the code | it permutes |
| `SortSlice` (`Go/SortSlice`) | `sort.Slice` | the result is a sorted permutation, not stable |
| `Settings.Host` | `os.Stat` and `ioutil.ReadFile` of configuration files, YAML decoding | nothing |
| `Lint.Env` | map orders, the `inflection` library (`singularize`), `%v` of some AST values | nothing |
| `Lint.Host` | reading and parsing a file (emicklei/proto), `filepath.Abs` | `Sound`: elements are where the grammar allows them, positions carry the file's name, and names resolve to paths below the configuration; for C26 and C82 `ParsesByContent`: the name given to the parser only shows in positions |
| `Exec.Host` | stat, `GetForDir`, reading and writing files, the output, the parser, the compiler, `diff`, encoders | `Prints` where output is claimed: everything written arrives |
| `Exec.Tools` | `proto.Marshal`, SHA-256, git, temporary files, decoding of descriptor sets | `TempDirsOK`, `Injective` as named in each theorem |
| `Protoc.Env` (`Model/Compiler`) | reading proto files for imports, the downloader's answers, NumCPU | as named |
| the protoc process (`Model/CompileRun`) | a run ends with an output and a status | every run ends |
| `Spec.Toolchain` (C85) | how a run of protoc with a command line ends, given the files | a run of the same command on the same files ends the same |
| `Diff.System` (C83) | temporary files, `diff -u` | temporary files are new |
| `ReadsSimple` (C84) | the YAML reader | it skips comment lines and reads two settings |
| `Download.Host`, `stat`, `sum` | environment, platform, SHA-512 | as named |
| `Grpc.Env` | the grpcurl library, TLS files, `time.ParseDuration` | writing a response succeeds |
| `Cmd.System`, `Parsed`, `Usage` | everything above for a process, and what cobra and pflag make of the arguments | errors of the final write are ignored, as in the code |

### Loops and processes

* Unbounded loops (the walk to the root, `IsExcluded`) have fuel; running out of
  it is a separate outcome, and a theorem shows when it cannot happen.
* `WalkTimeout` (C22), `CompileRun` (C42, C43, C46) and `DownloadRun` (C47) are step
  relations; theorems quantify over every sequence of steps, and in `DownloadRun` every
  crash point. Simplifications: accesses to the `timedOut` flag are atomic (Go has a race
  there); the section under the semaphore's lock is one step; `os.Remove` and
  `os.RemoveAll` succeed; `flock` is per inode, as on Linux; one file is written in one
  step per file; one goroutine uses a downloader.
* `format` and `lint` among other processes (C103, C115; `Steps`, `LintSteps`): a run of protoc, each
  reading of a file, and each truncation and writing (or both together, where a theorem says so)
  is one step; printing touches no file and is in the step before it.
* The regular expressions of `protoc` output are in `Go/Regexp` as far as they
  are used (literals, groups, `.*`, leftmost-first).

## 4. How each property is modelled and proved

| id | modules | status | how, and what is left out |
| -- | ------- | ------ | ------------------------- |
| C01 | `Props/Breaking`, `Props/Reflect` | proved | `Spec/Breaking` defines compatibility by paths; equivalence by induction on nesting. Schemas are those protoc and reflection produce (SchemaOK); C01_descriptors starts from descriptor sets. |
| C02 | `Props/Breaking` | proved | From C01: compatibility is reflexive. All well-formed schemas, all settings, all map orders. |
| C03 | `Props/Breaking` | proved | From C01: compatibility is transitive; induction on histories. Triples and arbitrary finite histories. |
| C04 | `Props/Breaking` | proved | From C01: compatibility holds for extensions. Additions at any nesting depth; enum values need unused numbers (an alias of a used number is reported, see C04_alias_is_reported). |
| C05 | `Props/Breaking` | proved | Non-interference: runs on two pairs that agree outside beta packages. Outcome is equal when the stable packages are equal. |
| C06 | `Props/Breaking`, `Props/BreakingOnce` | proved | Per checker: a failure is there iff the change is. Failures are exactly those of the specification relation MustReport, with identifier and text; no check reports an element twice, and no failure is given twice when full names are unique in the old schema. |
| C07 | `Props/Breaking` | proved | Outputs for two orders are permutations; sorting is canonical. Any two iteration orders of all maps give the same sorted failures. |
| C08 | `Props/Reflect` | proved | The package set depends on the files only through the definitions, up to permutation. Marshalling is a parameter, injective on the files at hand. Enum values may be reordered only if numbers are distinct (aliases are ordered by position). |
| C09 | `Props/Breaking` | proved | Invariant of the construction loop. Mirror, membership and exact failure condition. |
| C10 | `Props/Desc` | proved | Induction on the list. Marshalling with SHA-256 is a parameter, assumed to succeed and to be injective on the files at hand. sort.Slice is any function sorting by the comparison. |
| C11 | `Props/Desc` | proved | Induction on the list.  |
| C12 | `Props/Reflect` | proved | Permutation invariance of each map and sort. Order independence needs that names identify the definitions of a package, as protoc ensures; sort.Slice leaves ties open otherwise. |
| C13 | `Props/Version` | proved | Equivalence with a grammar.  |
| C14 | `Props/Strs`, `Props/StrsKeys` | proved |  all map iteration orders |
| C15 | `Props/Strs` | partial |  Idempotence holds for lower snake case; for upper snake case it is false of the code (FooBar -> FOO_BAR -> FO_O_BAR), shown by C15_upper_not_idempotent. |
| C16 | `Props/Strs` | proved |   |
| C17 | `Props/Text` | partial |  exact output proved for all inputs; the colon-join reading fails when the last selected field is empty (dangling colon, witness) |
| C18 | `Props/Text` | proved |   |
| C19 | `Props/Discovery` | proved |  Host.stat is a parameter. The loop is bounded by the path length; C19_nearest shows the bound is never reached for absolute paths. |
| C20 | `Props/Discovery` | proved |  C20_relative_diverges shows that the Go loop does not end on relative paths; callers pass absolute ones. |
| C21 | `Props/Discovery` | proved |  The hypothesis ExcludesBelow says that configurations exclude only paths below their directory. The code checks this by comparing strings, which lets siblings pass (C50_sibling_excluded); C21_excludes_below gives a sufficient condition on the configuration files. |
| C22 | `Props/Discovery` | proved |  Two goroutines and the timer as a step machine; accesses to timedOut are atomic in the model (they race in Go). |
| C23 | `Props/LintConfig` | proved |  The linters of a run are the group (uber1 by default) plus add minus remove, each once; unknown names and groups are errors; and the same starting from the configuration file. Rule names under ignores with an empty file list are not looked up by the code. |
| C24 | `Props/LintConfig` | proved |  The tables of docs/lint.md are transcribed in Verif/Spec/LintDoc.lean and compared with the linter tables of the code. |
| C25 | `Props/LintRun` | partial |  Ignored failures are absent for all rules; all others stay for the rules on single files. For rules that compare the files of a directory the second half is false (C25_not_only); C25_as_if_absent says what holds for all rules. |
| C26 | `Props/ExecLint`, `Props/ExecNames`, `Props/LintRename`, `Props/LintRun` | proved |  For all rules, proto sets and configurations, with both kinds of file names. Assumes that the parser puts the given file name into positions and otherwise depends on the content only (Spec/Rename). That display paths lead to the files is proved for what discovery finds (C82_discovered), and C26_command states the claim for the commands run in the working directory. |
| C27 | `Props/LintRun` | proved |  Whole lint runs: every map iteration goes through an order oracle, and the directories may be listed in any order. |
| C28 | `Props/LintSuppress` | proved |  For the rules that can be suppressed, what is reported is exactly the offending elements whose comment does not suppress the rule; C28_rules shows which rules these are. The rule on HTTP options needs grammatical files without such an option outside of an RPC, where it crashes. |
| C29 | `Props/LintNames` | proved |  All naming rules; the two groups of theorems say where and that these are all elements in files without groups. |
| C30 | `Props/LintEnums` | proved |  All nesting depths; EXCEPT_MESSAGE variants on grammatical files. |
| C31 | `Props/LintDir` | proved |  Packages and option values. The package rule leaves out files without a package; the option rules count a missing option as an empty value. Reports are on every file, and silence does not depend on the order. |
| C32 | `Props/LintTypes` | proved |  All request/response type rules and the three rules that except these types, with exact places. The files are grammatical; among messages of the same name the last one counts, and blocks of extensions count as messages. |
| C33 | `Props/LintRun` | partial |  Proved for 95 of 96 rules and for whole runs. The remaining rule crashes exactly when a file or service option begins with (.google.api.http): C33_http_crash, C33_not. |
| C34 | `Props/FormatText` | proved |  For every file the formatter accepts and every sort function. C34_clean assumes that names and comment lines have no line breaks inside (OneLine, true of the parser) and a clean header (C34_header: the configuration gives no other). |
| C35 | `Props/Format` | partial |  C35_layout is the whole printed file line by line; C35_kept_partial finds every declaration among the lines of the text. What fails is in C35_not: an option written {} is dropped without a failure. |
| C36 | `Props/Format`, `Props/FormatTwice` | partial |  Fixed point for every file whose sort function leaves sorted lists alone (C36_settled) or whose names are distinct (C36_distinct). C36_not: sort.Slice may swap options of one name each time, as it is not stable. With --fix: C36_fix_distinct (managed options may occur any number of times, the other names are distinct, the file has a package), C36_fix_top (a header is not printed twice), C36_fix_plain (format without --fix agrees). That the text of a second run is the text of the first, comments included, is C97_again_partial, C97_again_fix_partial and C97_again_headed_partial. |
| C37 | `Props/FormatFix` | partial |  C37_rewritten: --fix prints the file with the managed options replaced. For uber2 that file satisfies every option rule (C37_uber2_silent), for uber1 if no java_package_prefix is configured. Violations: C37_not_prefix (uber1 with a prefix), C37_not_kept (outside uber2 csharp_namespace, objc_class_prefix and php_namespace are dropped). |
| C38 | `Props/Exec`, `Props/ExecFiles`, `Props/FormatHistory` | proved |  Command run over any disk, output, flags, arguments, map order and any compiler, parser, diff and encoder (Exec.Host). Read-only without --overwrite; with it exactly the concerned files whose formatted text differs are written, once each, with that text; exit zero iff clean; a second run after a stable format writes nothing. Hypotheses: the output takes everything (Prints) where output is claimed; no file listed twice (Distinct), which C38_distinct derives from discovery. Which files are concerned is the code's own prefix test, see C61. C38_clean: on formatted files the command with --overwrite, --lint or --diff ends well, prints nothing and writes nothing. C38_settled: so it does after an overwriting run that ended well, for regular files (C98) that the parser reads as readWithComments does, so that stability is no assumption there. |
| C39 | `Props/Create` | proved |  Any unfit path (empty, no directory, file with content) makes create fail with nothing changed; only requested files are ever written, also on failure half way; files with content keep it; on success every path has the text of the template. Symbolic links are not modelled. |
| C40 | `Props/Create` | partial |  The explicit package is used; the result is the same for all map orders; the package is the documented one unless a create.packages directory is a string prefix of the path without containing it (C40_not: idl/code captures idl/codegen). |
| C41 | `Props/Create`, `Props/CreatedLint` | partial |  The created text is, up to the final newline, what format --fix writes; under uber2 all option rules are silent; under uber1 only without java_package_prefix (C41_not_prefix). C41_uber2_parsed and C41_uber1_parsed_partial say the same of files as parsed, with positions. |
| C42 | `Props/Compile` | proved |  Compile as a step machine of the main goroutine, the semaphore and one goroutine per protoc command: every schedule ends, never more than NumCPU runs at once, the verdict is the same for all schedules and map orders; only the order of the joined error texts depends on the schedule (C42_error_order). |
| C43 | `Props/Compile` | proved |  Temporary descriptor-set files are gone when Compile or the dry run returns, on every path; while protoc runs each exists. Removal is taken to succeed. |
| C44 | `Props/CompileArgs` | proved |  The exact include list for all configurations and directories, and the only error. For directories below the configuration the added directory is never listed already. |
| C45 | `Props/CompileArgs` | partial |  All modifiers are exactly those of the files outside the directory, the well-known types with their Go packages and the configured extra ones; those for files are distinct and never for the own directory. C45_not_sorted: the order is that of the map loops. C45_not_once: an extra modifier for a file of the set is passed in addition. |
| C46 | `Props/Compile`, `Props/ProtocLines` | partial |  Each output line becomes a failure except for the listed ignorable ones, and the failure has the file, place and message that the line means (C46_reading, against a table of the kinds of lines); success means every protoc run ended with status 0 and only ignorable lines. C46_not: a signal during a run makes Compile end in success although protoc was killed. |
| C47 | `Props/Download` | partial |  All interleavings and crashes of any number of processes. The binary a process gets had answered under the lock; without deletions there is one writer at a time, accepted caches never change, complete downloads stay complete, and a cache without an accepted binary is repaired. Missing and shown false: a crash after the binary was written leaves files missing for ever (C47_not_repaired); deleting the cache lets two processes hold a lock (C47_not_exclusive). |
| C48 | `Props/Download` | partial |  Proved for archives whose entry names have no '..' component; C48_not shows that other archives are written outside the directory. |
| C49 | `Props/DownloadPath` | partial |  URL, override, errors, what is downloaded, exact directory and what it depends on for all versions and platforms. Different names have different, disjoint directories if they are path components; C49_not_distinct shows versions such as ./3.8.0 that are not. With a given cache directory all platforms share a directory (C49_not_platform). C49_data shows that with a given URL a status other than 200 is no error at that point and yields an empty archive. |
| C50 | `Props/Settings` | proved |  Acceptable states the string comparison that the code makes for excludes; C50_sibling_excluded shows it accepts a path outside, C50_excludes_below when it does not. |
| C51 | `Props/Grpc` | proved |  checkFlags, getNetworkAddress, getServiceForMethod and getServiceInfo are characterised by equivalences. A file without package makes the search fail even if the service exists (C51_not_package). |
| C52 | `Props/Cmd` | partial |  Exit codes are proved for every command, parsed command line and system; the text of a command's error is printed exactly once. Refuted part: what is wrong with a command line is printed twice (C52_not_once). cobra and pflag parsing is a parameter. |
| C53 | `Props/ExecLint` | proved |  All pairs of documented groups, in any case, any map order. Unknown groups and malformed arguments too. The message for malformed arguments names the wrong separator. |
| C54 | `Props/Discovery` | proved |  Stated for successful discovery without configuration data. |
| C55 | `Props/LintComments` | proved |  All comment rules. |
| C56 | `Props/LintFields` | proved |  All field rules. |
| C57 | `Props/LintOther` | proved |  One theorem per rule. |
| C58 | `Props/LintOptions`, `Props/Managed` | proved |  Tables of rules with the option each is about. C58_uber1_rules/C58_uber2_rules list all the option rules of the groups; the _together and _same_in_dir theorems show that one set of options meets all of them. C58_uber1_rules/C58_uber2_rules list all the option rules of the groups; the _together and _same_in_dir theorems show that one set of options meets all of them. |
| C59 | `Props/LintPackage` | proved |  One theorem per rule. |
| C60 | `Props/Derived` | proved |  For all packages made of identifiers; the C# and PHP values of versions of 2^63 and above are wrong (witness). |
| C61 | `Props/ExecFiles` | partial |  False as stated (C61_not: format --overwrite on a also rewrites ab/y.proto, files a lists it). Proved: the exact set of files (below the directory, or below a neighbour whose name starts the same), and the full property if the directory has its own configuration or none above it does. Missing: the property itself, which the code violates. |
| C62 | `Props/ExecLint` | partial |  Proved what is printed and the exit code for every run; exit 255 iff something printed proved for directories with the default error format or JSON; false for single files (C62_not_single). |
| C63 | `Props/ExecFiles` | proved |  Any proto set and map order; given a single file the whole directory is listed. Hypothesis: display paths are not empty. |
| C64 | `Props/ExecLint` | proved |  All configurations with known names, any map order and any sort.Slice; the layout of the table and the descriptions are in C108. |
| C65 | `Props/ExecAll` | proved |  allCmd models All step by step. C65_formatted asks that the paths are distinct and the plugins do not write to the formatted files; C65_sequence that what compiled still compiles after generating. |
| C66 | `Props/BreakCmd` | partial |  Output, exit code and restored files are proved for every run in which git, if it is used, ends well (C66_files_partial covers every other way to end). False when git fails: the temporary directory is left behind (C66_not). |
| C67 | `Props/DescriptorSet` | proved |  For all flags, sets and failures of writing; the encoders are parameters. C67_written asks that equal checksums mean equal files. |
| C68 | `Props/Inspect` | proved |  For every compiled schema and iteration order. |
| C69 | `Props/BreakCmd` | partial |  Proved for directories inside the working directory given without leaving it. False otherwise: a sibling directory whose name starts the same is accepted (C69_not_outside), and leaving and entering the working directory again compares the wrong directory (C69_not_inside). |
| C70 | `Props/RoundTrip` | proved |  Decoding is assumed to undo encoding, and checksums and encodings to tell files apart. With --json the written file cannot be read back (C70_not_json). |
| C71 | `Props/Init` | proved |  For all arguments and failures. Directories made on the way are not modelled. |
| C72 | `Props/CompileArgs` | partial |  Holds unless an include directory is a string prefix of the directory without containing it (C72_not: /w/inc and /w/incl). |
| C73 | `Props/CompileArgs` | proved |  The complete command list: directories, jobs, include list, output arguments and files. 'Below' is the code's string prefix in C73_commands; C73_generated shows that every directory really below is covered. |
| C74 | `Props/CompileArgs` | proved |  For configurations whose output paths are absolute and cleaned and whose suffix has no slash. |
| C75 | `Props/DownloadPath` | proved |  When an own protoc is accepted, which paths are used. C75_not shows the panic when google/protobuf cannot be looked at. |
| C76 | `Props/DownloadPath` | proved |  Exactly the files in the root are removed, and all caches and lock files are there. C76_not_only shows that a given cache directory is deleted with everything else in it. |
| C77 | `Props/Grpc`, `Props/GrpcCalls`, `Props/GrpcOrder` | proved |  The grpcurl library, TLS files and time.ParseDuration are parameters; writes of responses succeed. C77_called is for files that all have packages (see C51_not_package). |
| C78 | `Props/Cmd` | proved |  For all flags and environments. |
| C79 | `Props/Cmd` | partial |  Refuted as documented (C79_not): with PROTOTOOL_CACHE_PATH set, the custom cache is removed. Without the variable exactly the default cache is removed (C79_default_partial), and nothing if the command fails (C79_failed). |
| C80 | `Props/Cmd` | proved |  For every system, command line, flag value and outcome, by non-interference of each command with the files. |
| C81 | `Props/Cmd` | proved |  For all lists of flags that fit their types; the tables of flags and words are checked wholly. |
| C82 | `Props/ExecNames`, `Props/LintRename` | proved |  For whole runs and for each rule. Messages are not compared since some mention file names. Same assumption on the parser as C26. C82_discovered: display paths of discovered files lead from the working directory to the files. |
| C83 | `Props/Diff`, `Props/ExecDiff` | proved |  The temporary files are gone on every path if they were new. diff -u gets two files with the two texts; only the names in the first two lines of its output are replaced; fewer than two line breaks are an error. Command level: exactly the changed files are shown, with exit code 0 or 255. The program diff and the temporary files are parameters. For --lint the display paths must lead to the files, which C82_discovered shows for files found by discovery. |
| C84 | `Props/CfgInit` | proved |  The two templates are modelled line by line with their placeholders and the HTML escaping of html/template; lines that are not comments are compared for every plain version (C84_settings), every line of the uncommented form is that of the documented form without its marker (C84_uncommented), and the file that config init leaves is read back through the model of the configuration (C84_config, C84_init). Assumed of the YAML reader: it skips comment lines and reads a text of these four lines. The uncommented form itself is not a valid configuration (it sets both path and content of the file header, as its comments say, and one linter both as added and removed). |
| C85 | `Props/ExecCompile` | proved |  The commands of internal/exec are run on the model of internal/protoc (Uses): the environment, the temporary files and protoc itself are functions of the files. C85_compile is an equivalence; C85_accepted covers every command that compiles first; C85_failures gives the output and status if protoc objects; C85_dry_run compares the printed commands with those run. Signals are excluded (Undisturbed), see C46_not. |
| C86 | `Props/AllOrder`, `Props/ExecOrder`, `Props/FormatOrder`, `Props/GrpcOrder` | partial |  Proved for files, compile, generate, create, lint with every flag, descriptor-set, break descriptor-set, break check, the inspections, and for format when it goes through one directory: same files, same text, same code (errors other than exit codes may differ in their text). C86_system derives the hypothesis from discovery and the compiler model with two map orders, two schedules and two sets of temporary names. It is false of format over several directories and of compile --dry-run: the files or commands are printed in the order of a map (C86_format_order_not, C86_dry_run_order_not); C86_format and C86_all prove for format in every mode and for all that the files left, the code and the text for each file are the same, and only the order differs (for all, only when a file cannot be formatted). It is false of grpc: a file without package in another directory is an error only if its directory is looked at first (C86_grpc_not); C86_grpc_partial proves it when all files have packages and the server answers alike whichever set with the service is used. |
| C87 | `Props/FormatTwice`, `Props/Readable` | proved |  C87_read: without --fix, if the formatter reports nothing, the text reads (tokensOf, readFile: an independent lexer and reader for the grammar of protobuf) as the declarations of the file without comments, in the order of the formatter. C87_same says what that order keeps: syntax, package, options and imports up to order, all other declarations in order. C87_read_fix: with --fix the same for the file with the managed options replaced; C87_header: a header of the configuration that prototool comments is made of comments. C87_create: the text create writes reads as syntax, package and options. C87_fixed_point: formatting what is read from a text without comments gives the text again. FileFits restricts to names, values and labels that a file can have. Outside it: the label optional of a proto3 field is dropped (C87_not), an option with the value {} is dropped (C35_not), and a quote in the name of the file breaks java_outer_classname (example). Comments are the subject of C35, not of this property. C87_fixed_point_fix: so with --fix. |
| C88 | `Props/LintSays` | proved |  Places and texts of all reports of these rules (Says), and silence on files that follow the proposals (CleanOn); the replacement of file_name and file_path is shown to leave none behind. The names and values proposed are those of C15, C30, C58 and C60. Texts of the other rules are not claimed. |
| C89 | `Props/Comments` | partial |  The lexer of C87 can keep comments (commentsOf). C89_comments_partial: for a file that the grammar allows, the comments found in the formatted text are exactly those of the declarations in the order of the formatter, a permutation of the comments of the file. C89_between_partial: wherever the file is cut between two top-level declarations, the text can be cut so that each side has its declarations and its comments. C89_fix_partial: with --fix the header takes the place of the comments at the top and all other comments of what stays are kept. Partial because the code loses comments by themselves in the body of an RPC (C89_not); comments in the brackets of fields and enum values are excluded as well, and with a single option on the line the printer does not look at them. |
| C90 | `Props/Reformat`, `Props/ReformatRead` | partial |  C90_same_partial: for what is read back from the formatted texts of the files of a directory (the reader of C87), each of the 73 rules that do not look at comments reports as many failures as for the files before. C90_read_partial: for what is read back with comments (the reader of C97), every rule except COMMENTS_NO_C_STYLE and FILE_HEADER reports at most as many; C90_no_more_partial is the same for any files related in this way. C90_no_c_style: COMMENTS_NO_C_STYLE reports nothing after formatting. Partial because the code violates the property in two ways: a space at the end of a comment line that a rule asks for is cut off (C90_not_trailing), so the seven rules that look for the name at the beginning of a comment need lines without white space at their ends; and a message on the line of its RPC comes to be above it (C90_not_line), so that rule needs messages and RPCs on lines of their own. C90_read_partial also needs what C97 needs: no comments where the formatter drops them and comments behind declarations of at most one line. FILE_HEADER, which looks at the text, is left out. |
| C91 | `Props/CreatedLint` | proved |  For every group the rules are silent about created files exactly if Pleases holds (C91_group); from this a run with any excludes and ignores (C91_run) and the command (C91_command) report nothing. C91_created derives what a created file is from its text by C87. The files of a directory share package and configuration; that the parser finds what the text says, and attaches the header to no declaration, is assumed. |
| C92 | `Props/Scope` | proved |  C92_run and C92_alone are about runs over any two sets of files with a directory or a file in common; C92_lint and C92_format are about the commands, with discovery. Directories without any configuration file above them are covered if they are the same (a file and its directory). |
| C93 | `Props/Wire` | partial |  Reading is defined in Spec/Wire.lean and Spec/Binary.lean, apart from the code. Values read the same in both directions (C93_reads, C93_bytes, C93_new_data). Missing because the code does not ensure it: data is rejected after a required field was added, which break check passes (C93_accepted_not; C93_accepted_partial without added required fields), and names of removed enum aliases cannot be read (C93_names_not; C93_names_partial without aliases). JSON names set by the json_name option, default values and extensions are not part of the schemas that break check compares, so they are outside the model. |
| C94 | `Props/BetaUse` | proved |  Proved about descriptor sets, end to end through reflection and the check. UsesImported is what protoc ensures: a file uses only what it imports, directly or by way of (public) imports. |
| C95 | `Props/CmdLine` | proved |  Theorems about the whole program as started with a command line: parsing of the flags, the settings that the runner and the downloader get from them, and the operation, with the results of C38, C62, C63, C65, C71, C77, C80, C83, C85 carried over. Printing of help texts, shell completions and the profiler is not modelled. |
| C96 | `Props/Json` | proved |  The encoder of encoding/json is modelled in Go/Json.lean, the reader of Spec/Json.lean follows RFC 8259 and does not refer to it. C96_text_ambiguous shows that the text format needs its conditions. |
| C97 | `Props/Attached`, `Props/AttachedAgain` | partial |  readWithComments (Spec/Attached) is a reader that knows the lines of tokens and gives each comment to the declaration below it or in front of it, or to none. C97_attached_partial: reading the formatted text gives the declarations of the file with their comments, in the order of the formatter. C97_fix_partial: with --fix and no header, the file with the managed options replaced. C97_headed_partial: with a header, the header stands in place of the comments at the top; C97_header: a header from the configuration is such a header. C97_again_partial, C97_again_fix_partial, C97_again_headed_partial: reading the text and formatting it again gives the same text. Partial because of a comment of several lines behind a statement the formatter prints all lines but the first below it, where they belong to what follows (C97_not) and where a second run puts an empty line (C97_not_again), because comments by themselves in the body of an RPC are lost (C89_not), because the comment above the syntax statement is set off by an empty line (setOff), and because a second run of --fix with a header takes that one for a comment at the top and replaces it (C97_header_lost). |
| C98 | `Props/Canonical` | partial |  C98_layout: two files of which the same is shown (declarations with their comments, without positions and style of comments) are formatted to the same text, in every mode, with distinct names (C36_not shows that sort.Slice need not treat equal names alike). C98_order: moving options and imports changes nothing. C98_same_partial, C98_same_fix_partial: two files have the same text exactly if their declarations and comments in the order of the formatter are the same. C98_again_partial: formatting the parsed text of a formatted file gives the text. Partial because these three need regular files: the formatter loses some comments and moves others (C89_not, C97_not, C97_header_lost), so two files that differ in those are formatted to the same text. |
| C99 | `Props/ConfigData` | partial |  Go/JsonDecode models encoding/json's decoder (values, strings with escapes and surrogate pairs, numbers, storing into structs with tags, lists and maps, DisallowUnknownFields), Model/ExternalConfig the tags of ExternalConfig. Spec/JsonText gives the grammar of RFC 8259 as relations, Spec/ConfigData the documented names, kinds and their meaning. C99_reads: a documented text gives exactly its settings; C99_strict: accepted iff names (in any case) and kinds are right; C99_begins: whatever is accepted begins with such a value; C99_all: every configuration has a text; C99_data, C99_refused, C99_data_is_file, C99_data_is_dir: --config-data. Partial because the code is not strict in two ways: C99_not_whole (text after the value is ignored) and C99_not_once (repeated names). |
| C100 | `Props/RuleChange` | proved |  Sound says what the parser and the discovery of files provide: parsed files keep to the grammar and lie below the directory of the configuration. KnownNames: the rule names in the configuration exist. The configurations compared are in the same directory. |
| C101 | `Props/Interrupt`, `Props/InterruptAll`, `Props/InterruptMore` | partial |  Holds between writes (C101_between_partial, C101_resumed_partial, C101_all_resumed_partial, C101_create_resumed, C101_init_resumed_partial); false in a write, since files are emptied before they are filled (C101_not_whole, C101_not_again, C101_create_not_again, C101_init_refused: a stopped config init is refused from then on). all may also be stopped anywhere in the run of its plugins, if these write apart from the sources and do not read what they left (C101_all_resumed_partial). C101_create_kept holds at all moments, and so does C101_descriptor_set_again: the commands that write a descriptor set may be stopped anywhere and started again. Resuming format needs comments the formatter keeps in place and a parser that reads back formatted texts. |
| C102 | `Props/BreakingLocal` | proved |  For all schemas that protoc accepts, from the exact list of failures (C06_reports). C102_local: each failure is due to one package; C102_unchanged: which changed; C102_steps: changes by whole packages add up; C102_beta: the remaining check is about the new schema alone. |
| C103 | `Props/Apart`, `Props/Together` | partial |  format as a program of steps (compile, every read, every write, every output), any number of runs with the same settings and of readers, any schedule, by a rely-guarantee argument: as one run it is the command of the model, schedules end, format without --overwrite only reads. If a write were one step, every file is as it was or formatted at every moment, runs that ended well have formatted their files, all end well if the files can be formatted and compile, and the result does not depend on the schedule (the _partial theorems). C103_not: the code empties a file before it fills it, and a second run that reads in between replaces the file by the header alone while both runs end well. The formatted text must be formatted to itself (C36, C97). C103_apart and C103_leaves hold of the code as it is, with writes of two steps: among any programs that leave its files alone, such as runs about other files, a run that ended well has formatted its files, and a run that ended has left each as it was or formatted. |
| C104 | `Props/Moved`, `Props/MovedFormat`, `Props/MovedRun` | proved |  Discovery, for every tree at two places with portable configurations: same files, same display paths, same settings up to the place. files, compile, generate, lint, format and all in the tree: the same output, the same exit error and the same files of the tree, given tools whose results do not depend on the place; format and all if the directories are taken in the same order (C86 says what another order changes). What format makes of a file depends on its name only by the base name, for every sort that only compares. |
| C105 | `Props/LintTexts` | proved |  Position and exact text of every failure of every rule not covered by C88. The rule about HTTP options and the rules about request and response types are stated for files that follow the grammar; the former also for files without the options on which it crashes (C33). |
| C106 | `Props/Makers` | partial |  Proved for content that was there before the runs began, and for the files they make, among programs that leave these files alone. False of content that appears between the check and the write: two runs of create both end well and the second one has overwritten the file of the first (C106_not). |
| C107 | `Props/Complaints` | proved |  Every error text of the conversion and of the search, with the group of checks it belongs to. Messages of the JSON decoder, of the YAML library and of the operating system are parameters of the model. The text for an output path that can not be made relative is left out: it needs a relative directory. |
| C108 | `Props/Listing` | proved |  The tabwriter and the purposes, parameters before, are modelled: the table for two cells per row without tabs or line breaks, the texts of all 96 rules as in the code. |
| C109 | `Props/History` | proved |  Lines are arbitrary parsed command lines on arbitrary systems. C109_line and C109_history state which path each command may change (Spec.MayChange), for absolute clean paths and where git and removal keep to the temporary directory. C109_content needs no such assumption. C109_alone, C109_reading and C109_again assume that everything can be printed. The protoc downloads of compiling commands and temporary files of the compiler are not on the modelled disk. |
| C110 | `Props/Described` | proved |  What protoc makes of a file is specified as a function of the parse tree (Spec/Described) with the lookup of type names, the names of map entries and of the fields of groups, and everything break check ignores as parameters. C110_described: the text that the formatter writes reads back as a file with the same description up to the order of the imports and to options. C110_redistributed: so packages keep all definitions and imports when some files are formatted. C110_same_report and C110_not_breaking say so of the commands. Assumed: the parser reads formatted texts as the grammar does (ReadsBack), the file fits the grammar (FileFits), with --fix the header is made of comments and path and prefix have no quotes. The parse tree has no label for groups, so the description gives them none. |
| C111 | `Props/CreateFormat` | partial |  C111_reported shows that the property fails for every created file: format --lint reports it, since the created text lacks the newline at the end. C111_newline_partial is the part that holds: that newline is all that format --overwrite adds, with --fix or without, and C111_formatted: with it the file is its own formatted text. The parser is a parameter and is to read the created text as what it declares. Examples: a created file with a header is reported, then gets its newline. |
| C112 | `Props/Facts` | proved |  Facts in Spec/Facts. Clean iff no fact about a checked package is lost (C112_clean_iff_stated), for schemas, descriptor sets and the command with --descriptor-set-path; both directions, several old schemas, histories. Well-formed schemas as protoc and the reflection step make them (SchemaOK / DescriptorsOK). |
| C113 | `Props/Excludes` | proved |  C113_found: the files found after the exclude was added are those found before that do not lie at or below it, listed for the same directories and under the same names. C113_lists: in the same order. C113_config: the configuration is the same up to the excludes. C113_files: what the files command prints. C113_lint: what lint says of the files that stay. Both runs are taken to find files; whether discovery succeeds is C21_walk_succeeds and C54. |
| C114 | `Props/Discoverable` | partial |  Proved with a configuration file, with a configuration on the command line and with none, unless a name in the configuration directory starts with two dots, or there is no configuration and the files are outside the working directory. In these two cases the code fails; both are shown by a witness. |
| C115 | `Props/LintSteps` | partial |  Every schedule of lint with any number of format runs and readers. Missing: writes in two steps, as the code does them, and rules that compare the files of a directory; for both the property is false of the code (C115_not, C115_not_directory). |
| C116 | `Props/Agree` | proved |  Conditions: the formatted text of a file is formatted to itself (C36 says when), the formatted files compile, and for all the plugins do not write to the files; for the second all they also write again what they wrote. |
| C117 | `Props/OneByOne` | proved |  For files governed by the configuration of the directory asked for. lint is stated for a run without flags that does not fail on a file it cannot read or parse. |
| C118 | `Props/Releases` | proved |  The commands themselves, from C03, C66 and C70. Releases have the same break configuration, are written without --json, and protoc makes the same definitions of a release in all its modes; decoding undoes encoding, and encodings and checksums tell files apart. Every release is one protoc accepts; a finite history is extended by repeating its last release. |
| C119 | `Props/Listed` | proved |  C119_listed for format and lint, C119_compiled for protoc. The file of a line is the path it leads to from the working directory (fileAt), so the statement is about printed lines and files on disk only. |
| C120 | `Props/Additions` | proved |  An iff for the comparison of the descriptor sets, and the whole command against a descriptor set and against a branch of the repository. Definitions may grow at any depth; an enum with aliases (two values of one number) must stay as it was. |
| C121 | `Props/CreateBreak` | proved |  The descriptors of the other files are unchanged; the comparison and the whole command find nothing. What protoc makes of a file is specified with the lookup of type names as a parameter; that it accepts the files is a hypothesis. |
| C122 | `Props/Tended` | proved |  Induction over the sequence, from C110 and C121. What protoc makes of a file is specified as in C110; at each moment protoc accepts the files. Formatted files fit the grammar and the parser reads formatted texts and created files as the grammar says, as in C110 and C121. |
| C123 | `Props/Says` | proved |  Equivalence between the outcome of the command and statements about file descriptors only, from C112 and the reflection of C12. Enums with aliases are left out of the equivalence: of several values of a number the last one listed counts (C112 covers them on the level of reflected packages). C123_kept needs no such assumption: a clean check keeps everything that is not an enum value. |
| C124 | `Props/Removed` | proved |  From sources to the outcome of the command: descriptors are what Spec/Described says protoc makes of the sources (as in C110), and groups, maps and oneofs are assumed to stand in messages only, as the grammar of proto files has it. Only declarations outside of messages; what is inside is covered by C123 on the level of descriptors. |
| C125 | `Props/Members` | proved |  From sources to the outcome of the command: descriptors are what Spec/Described says protoc makes of the sources (as in C110). For enum values, no enum may have aliases, as in C123. Labels and oneofs of fields are in C126, builtin types in C128, and streams of methods in C127. Other types and the request and response of methods are compared as well (C123), but are not read off the sources here. |
| C126 | `Props/FieldPlace` | proved |  From sources to the outcome of the command: descriptors are what Spec/Described says protoc makes of the sources (as in C110). The parser keeps no label of a group other than optional, so the model gives every group the label optional; a change of the label of a group is outside of this claim. |
| C127 | `Props/Streams` | proved |  From sources to the outcome of the command: descriptors are what Spec/Described says protoc makes of the sources (as in C110). The request and response types are compared as well (C123), but are not read off the sources here. |
| C128 | `Props/FieldTypes` | proved |  From sources to the outcome of the command: descriptors are what Spec/Described says protoc makes of the sources (as in C110), and a field has the number of a builtin type in its descriptor exactly if that type is written (KnowsBuiltins). Types that are messages or enums are compared by their full names (C123), which are not read off the sources here. |

The models behind `Props/X` are in `Model/`: `Breaking`, `Extract`, `Reflect`, `Desc`, `BreakCmd`
(internal/breaking, extract, reflect, desc), `Protostrs`, `Strs`, `Text` (the packages of these names),
`Settings`, `File`, `WalkTimeout` (settings, file), `ProtoAST`, `Visitor`, `Linters`, `LintersState`,
`LintConfig`, `LintRun`, `GenerateIgnores` (lint), `Printer`, `Format` (format), `Exec`, `ExecMore`, `Steps`,
`LintSteps`, `Create`,
`Compiler`, `ProtocOutput`, `CompileRun`, `Downloader`, `DownloadRun` (protoc), `Grpc`, `Cmd`.

## 5. What is not modelled

The emicklei/proto parser (the AST is the input; `Spec/Grammar` says what is assumed of it),
protoc itself, YAML decoding, git, gRPC on the wire, HTTP and TLS (a download is a
list of archive entries), logging, cobra's and pflag's parsing (only their result, a
command, its arguments and flag values), and the development-only commands for bash completion
and man pages. Symbolic links, file permissions and directories as such are not in the disk
of a command, which maps paths to contents.

## 6. Disagreements found between code and expectation

Each line names the theorem that shows it, if there is one; the others are noted from
reading while modelling.

Names and text
* `C15_upper_not_idempotent`: upper snake case applied twice differs (`FooBar`, `FOO_BAR`, `FO_O_BAR`).
* `C17`: a failure line ends in a dangling colon if the last selected field is empty.
* `C60`: versions of 2^63 and above wrap in C# and PHP names.
* `C04_alias_is_reported`: adding an enum alias can be reported as a change.

Paths compared as strings
* `C61_not`, `C50_sibling_excluded`, `C40_not`, `C69_not_outside`, `C72_not`: `strings.HasPrefix` on paths takes `/w/ab` to be inside `/w/a`.
* `C69_not_inside`: leaving and entering the working directory compares the wrong directory.
* `C20_relative_diverges`: the exclude loop does not end on relative paths.

Lint
* `C33_not`: a rule panics on `option (.google.api.http)` at the top of a file or in a service.
* `C25_not_only`: ignoring one file for a rule that compares files silences others.
* `C29_not_in_groups`: rules do not look into groups.
* `C62_not_single`: lint on a single file can exit with 255 and print nothing.
* An unknown rule under `ignores` with an empty file list is not reported.
* The error for `--diff-lint-groups` names the wrong separator.

Format and create
* `C35_not`: an option written `{}` is dropped.
* `C36_not`: options of one name may be swapped on every run.
* `C37_not_kept`, `C37_no_package`: `--fix` drops options outside uber2 and without a package.
* `C37_not_prefix`, `C41_not_prefix`: with uber1 and a java prefix, lint complains about what `--fix` and `create` write.
* `C87_not`: the label `optional` of a proto3 field is not printed.
* `C89_not`: comments in RPC bodies and on one-line options are dropped.
* `C97_not`: the second line of a comment behind a field goes to the field below; `C97_not_again`: a second run changes the text then.
* `C97_header_lost`: with a configured header, a second run loses the comment above the syntax statement.
* `C90_not_line`, `C90_not_trailing`: formatting can bring in a lint failure (an RPC moved to its own line; a space cut from a required comment).
* `C86_format_order_not`: plain `format` over several directories prints files in map order.
* Created files have no final newline.

Compiling
* `C45_not_sorted`, `C45_not_once`: modifiers are in map order, and an extra one can double one of the set.
* `C46_not`: if protoc is killed by the signal handler, the run counts as success.
* `C42_error_order`: the order of joined errors depends on the schedule.
* `C86_dry_run_order_not`: `compile --dry-run` prints the commands in map order.
* Temporary files stay open and errors of removing them are ignored; the signal handler is never stopped.

Downloading
* `C47_not_repaired`: a crash after the binary was written leaves an incomplete cache that is accepted for ever.
* `C47_not_exclusive`: deleting the cache deletes the lock, and two processes may write.
* `C48_not`: an archive entry with `..` is written outside the cache.
* `C49_not_distinct`, `C49_not_platform`: versions such as `./3.8.0`, and a shared cache directory.
* `C75_not`: a panic if the well-known types cannot be looked at.
* `C76_not_only`, `C79_not`: `cache delete` removes a custom cache named by `PROTOTOOL_CACHE_PATH`, with everything else in it, contrary to its documentation.

Commands
* `C52_not_once`: errors of usage are printed twice.
* `C66_not`: a failing `git clone` leaves its temporary directory.
* `C70_not_json`: `break descriptor-set --json` writes what `break check` cannot read.
* `C51_not_package`: one file without a package blocks every `grpc` call.
* `C86_grpc_not`: with a file without package in one directory, the order of a map decides whether `grpc` makes a call.
* `C93_accepted_not`: adding a required field passes `break check`, although old data is rejected after it.
* `C93_names_not`: removing an enum alias passes `break check`, although documents that use its name can no longer be read.
* `C101_not_whole`, `C101_not_again`: `format --overwrite` that is killed in a write leaves an empty file or a beginning of the text, since the file is emptied before it is filled; started again, it does not repair this. `C101_create_not_again`: `create` that is killed in a write leaves a beginning of the file, and then refuses the path because the file already exists. `C101_init_refused`: `config init` that is killed in its write is refused from then on, whatever is in the file.
* `C115_not`: `lint` reads a file while `format --overwrite` has emptied it, and says that the file has no syntax declaration. It says so neither before nor after.
* `C115_not_directory`: even if writes were whole, `lint` can read one file of a directory before and another after `format --fix` has changed its `go_package`, and says that the two differ. Before and after they are the same.
* `C103_not`: two runs of `format --overwrite --fix` at the same time, with a configured header. The second reads a file while the first has emptied it, formats the empty text to the header alone and writes this. Both runs end well, and the content is lost.
* `C111_reported`: `format --lint` reports every file that `create` has just made and ends with exit code 255, always: the created text has no newline at its end, and every formatted text has one. `C111_newline_partial`: this newline is all that `format` adds.
* `C114_not_dots`: a `.proto` file, or a directory that holds one, directly beside `prototool.yaml` whose name starts with two dots, for instance `..x.proto`. The check that files are below the configuration directory looks for the prefix `..` of the relative path, so every command fails with a system error.
* `C114_not_outside`: without any configuration file, the configuration directory is the working directory, so the same check fails for every file outside of it: `prototool lint ../foo` ends with a system error.
* `C106_not`: two runs of `create` for the same file at the same time. Both look, find nothing, and write. Both end well, and the second one has overwritten the file of the first one.
* `C99_not_whole`: text after the first JSON value of a configuration is not looked at, so an unfinished or second value is silently dropped; `C99_not_once`: a name that occurs twice is accepted, and an entry of the second list takes over what it leaves out from the first one. Names are accepted in any case.
* Repeated `--header` keys keep the last value, and values with commas are split.
