import Verif.Model.Cmd

/-!
# Specification of the command line
-/

namespace Verif.Spec

open Verif Str Exec Cmd

/-- The line that shows a text; nothing for the empty text. -/
def textLine (text : Str) : Str := if text = [] then [] else text ++ s%"\n"

/-- The value of a setting: the flag, or if there is none, the environment variable. -/
def FlagOrVariable (flag environment value : Str) : Prop :=
  (flag ≠ [] ∧ value = flag) ∨ (flag = [] ∧ value = environment)

/-- The systems the program runs on. -/
def Supported (goos : Str) : Prop := goos = s%"darwin" ∨ goos = s%"linux"

/-- The value of a flag. -/
def valueOf (f : Cmd.Flags) : Bind → Value
  | .address => .str f.address
  | .cachePath => .str f.cachePath
  | .callTimeout => .str f.callTimeout
  | .configData => .str f.configData
  | .connectTimeout => .str f.connectTimeout
  | .data => .str f.data
  | .debug => .bool f.debug
  | .descriptorSetPath => .str f.descriptorSetPath
  | .details => .bool f.details
  | .diffLintGroups => .str f.diffLintGroups
  | .diffMode => .bool f.diffMode
  | .disableFormat => .bool f.disableFormat
  | .disableLint => .bool f.disableLint
  | .dryRun => .bool f.dryRun
  | .document => .bool f.document
  | .errorFormat => .str f.errorFormat
  | .fix => .bool f.fix
  | .gitBranch => .str f.gitBranch
  | .headers => .list f.headers
  | .includeImports => .bool f.includeImports
  | .includeSourceInfo => .bool f.includeSourceInfo
  | .json => .bool f.json
  | .keepaliveTime => .str f.keepaliveTime
  | .lintMode => .bool f.lintMode
  | .listAllLinters => .bool f.listAllLinters
  | .listLinters => .bool f.listLinters
  | .listAllLintGroups => .bool f.listAllLintGroups
  | .listLintGroup => .str f.listLintGroup
  | .method => .str f.method
  | .name_ => .str f.name
  | .outputPath => .str f.outputPath
  | .outputPathBreakDescriptorSet => .str f.outputPath
  | .overwrite => .bool f.overwrite
  | .package_ => .str f.pkg
  | .protocURL => .str f.protocURL
  | .protocBinPath => .str f.protocBinPath
  | .protocWKTPath => .str f.protocWKTPath
  | .stdin => .bool f.stdin
  | .uncomment => .bool f.uncomment
  | .generateIgnores => .bool f.generateIgnores
  | .tmp => .bool f.tmp
  | .tls => .bool f.tls
  | .insecure => .bool f.insecure
  | .cacert => .str f.cacert
  | .cert => .str f.cert
  | .key => .str f.key
  | .serverName => .str f.serverName
  | .walkTimeout => .str f.walkTimeout

/-- The settings under the names that users write on the command line, as in docs/, first half. -/
def namedSettings₁ (f : Cmd.Flags) : List (Str × Value) :=
  [(s%"address", .str f.address), (s%"cache-path", .str f.cachePath),
   (s%"call-timeout", .str f.callTimeout), (s%"config-data", .str f.configData),
   (s%"connect-timeout", .str f.connectTimeout), (s%"data", .str f.data),
   (s%"debug", .bool f.debug), (s%"descriptor-set-path", .str f.descriptorSetPath),
   (s%"details", .bool f.details), (s%"diff-lint-groups", .str f.diffLintGroups),
   (s%"diff", .bool f.diffMode), (s%"disable-format", .bool f.disableFormat),
   (s%"disable-lint", .bool f.disableLint), (s%"dry-run", .bool f.dryRun),
   (s%"document", .bool f.document), (s%"error-format", .str f.errorFormat),
   (s%"fix", .bool f.fix), (s%"git-branch", .str f.gitBranch), (s%"header", .list f.headers),
   (s%"include-imports", .bool f.includeImports),
   (s%"include-source-info", .bool f.includeSourceInfo), (s%"json", .bool f.json),
   (s%"keepalive-time", .str f.keepaliveTime)]

/-- The settings under the names that users write on the command line, as in docs/, second half. -/
def namedSettings₂ (f : Cmd.Flags) : List (Str × Value) :=
  [(s%"lint", .bool f.lintMode), (s%"list-all-linters", .bool f.listAllLinters),
   (s%"list-linters", .bool f.listLinters),
   (s%"list-all-lint-groups", .bool f.listAllLintGroups),
   (s%"list-lint-group", .str f.listLintGroup), (s%"method", .str f.method),
   (s%"name", .str f.name), (s%"output-path", .str f.outputPath),
   (s%"overwrite", .bool f.overwrite), (s%"package", .str f.pkg),
   (s%"protoc-url", .str f.protocURL), (s%"protoc-bin-path", .str f.protocBinPath),
   (s%"protoc-wkt-path", .str f.protocWKTPath), (s%"stdin", .bool f.stdin),
   (s%"uncomment", .bool f.uncomment), (s%"generate-ignores", .bool f.generateIgnores),
   (s%"tmp", .bool f.tmp), (s%"tls", .bool f.tls), (s%"insecure", .bool f.insecure),
   (s%"cacert", .str f.cacert), (s%"cert", .str f.cert), (s%"key", .str f.key),
   (s%"server-name", .str f.serverName), (s%"walk-timeout", .str f.walkTimeout)]

/-- The settings under the names that users write on the command line. -/
def namedSettings (f : Cmd.Flags) : List (Str × Value) := namedSettings₁ f ++ namedSettings₂ f

/-- The values without any flag. -/
def defaultFlags : Cmd.Flags where
  callTimeout := s%"60s"
  connectTimeout := s%"10s"
  errorFormat := s%"filename:line:column:message"
  walkTimeout := s%"3s"

/-- Whether a command is one that only looks at the files. -/
def OnlyReads (c : Command) (f : Cmd.Flags) : Prop :=
  c ∈ [.compile, .files, .grpc, .inspectPackages, .inspectPackageDeps, .inspectPackageImporters,
    .lint, .version] ∨
  (c = .format ∧ f.overwrite = false) ∨ (c = .generate ∧ f.dryRun = true) ∨
  (c = .descriptorSet ∧ f.outputPath = [] ∧ f.tmp = false)

/-- The names of the flags a command has. -/
def flagNames (c : Command) : List Str := c.flags.map Bind.name

/-- The flags that the documentation in docs/, CHANGELOG.md and the editor plugins in vim/ use with the
commands. -/
def documentedFlags : Command → List Str
  | .all => [s%"disable-format", s%"disable-lint", s%"fix"]
  | .breakCheck => [s%"git-branch", s%"descriptor-set-path"]
  | .breakDescriptorSet => [s%"output-path"]
  | .cacheUpdate => [s%"cache-path", s%"config-data"]
  | .compile => [s%"dry-run", s%"protoc-url", s%"protoc-bin-path", s%"protoc-wkt-path",
    s%"cache-path"]
  | .create => [s%"package"]
  | .configInit => [s%"document", s%"uncomment"]
  | .descriptorSet => [s%"include-imports", s%"include-source-info", s%"json", s%"output-path",
    s%"tmp"]
  | .format => [s%"diff", s%"lint", s%"overwrite", s%"fix"]
  | .generate => [s%"dry-run", s%"protoc-url", s%"protoc-bin-path", s%"protoc-wkt-path",
    s%"cache-path"]
  | .grpc => [s%"address", s%"method", s%"data", s%"stdin", s%"details", s%"tls", s%"insecure",
    s%"cacert", s%"cert", s%"key", s%"server-name"]
  | .lint => [s%"list-linters", s%"list-all-lint-groups", s%"list-lint-group",
    s%"diff-lint-groups", s%"generate-ignores", s%"error-format"]
  | _ => []

/-- The letters that the documentation and the editor plugins use, with the flag that they stand for. -/
def documentedLetters : List (Command × Char × Str) :=
  [(.format, 'w', s%"overwrite"), (.format, 'd', s%"diff"), (.format, 'l', s%"lint"),
   (.descriptorSet, 'o', s%"output-path"), (.breakDescriptorSet, 'o', s%"output-path")]

/-- Whether a value has the type of a flag. -/
def Fits (b : Bind) (v : Value) : Prop :=
  match b.default, v with
  | .str _, .str _ => True
  | .bool _, .bool _ => True
  | .list _, .list _ => True
  | _, _ => False

/-- All values have the types of the flags of the command. -/
def Typed (c : Command) (values : List (Str × Value)) : Prop :=
  ∀ p ∈ values, ∀ b ∈ c.flags, b.name = p.1 → Fits b p.2

/-- All values of a flag that can be given more than once. -/
def allValues (name : Str) (values : List (Str × Value)) : List Str :=
  values.flatMap fun p => if p.1 = name then (match p.2 with | .list l => l | _ => []) else []

end Verif.Spec
