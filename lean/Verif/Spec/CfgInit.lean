import Verif.Model.CfgInit
import Verif.Model.Settings

/-!
# What a configuration file says, for the simplest of files
-/

namespace Verif.Spec

open Verif Str Settings

/-- A blank line or one with nothing but a comment. -/
def isCommentLine (line : Str) : Bool :=
  match line.dropWhile (· = ' ') with
  | [] => true
  | c :: _ => c = '#'

/-- The other lines of a text. -/
def effective (text : Str) : List Str := (splitChar '\n' text).filter fun line => !isCommentLine line

/-- A value that YAML takes as it is. -/
def PlainValue (v : Str) : Prop := v ≠ [] ∧ ∀ c ∈ v, c.isAlphanum = true ∨ c = '.' ∨ c = '-'

/-- The characters of the text are printable or end a line. -/
def Printable (text : Str) : Prop := ∀ c ∈ text, c = '\n' ∨ (' ' ≤ c ∧ c ≤ '~')

/-- The reader of YAML skips comments and reads a text that only sets the version of protoc and the
lint group. -/
def ReadsSimple (h : Settings.Host) : Prop :=
  ∀ text version group, Printable text → PlainValue version → PlainValue group →
    effective text = [s%"protoc:", s%"  version: " ++ version, s%"lint:", s%"  group: " ++ group] →
    h.parseYAML text = .ok { version := version, lintGroup := group }

/-- A line without and with an example in it uncommented: it is the same line, or one with a `#`
that only spaces precede and the same line without it. -/
def Uncommented (commented plain : Str) : Prop :=
  commented = plain ∨ ∃ indent rest, (∀ c ∈ indent, c = ' ') ∧ commented = indent ++ s%"#" ++ rest ∧
    plain = indent ++ rest

/-! ## All settings -/

/-- A setting with a text. -/
def yamlText (indent key value : Str) : List Str :=
  if value = [] then [] else [indent ++ key ++ s%": " ++ value]

/-- A setting that is on. -/
def yamlFlag (indent key : Str) (on : Bool) : List Str :=
  if on then [indent ++ key ++ s%": true"] else []

/-- A setting with a list. -/
def yamlList (indent key : Str) (values : List Str) : List Str :=
  if values = [] then [] else (indent ++ key ++ s%":") :: values.map fun v => indent ++ s%"  - " ++ v

/-- A setting with a text of several lines. -/
def yamlBlock (indent key text : Str) : List Str :=
  if text = [] then []
  else (indent ++ key ++ s%": |") :: (splitChar '\n' text.dropLast).map fun line => indent ++ s%"  " ++ line

/-- Settings below a key. -/
def yamlSection (indent key : Str) (lines : List Str) : List Str :=
  if lines = [] then [] else (indent ++ key ++ s%":") :: lines

/-- A plugin. -/
def yamlPlugin (p : ExternalPlugin) : List Str :=
  [s%"    - name: " ++ p.name] ++ yamlText s%"      " s%"type" p.type ++
    yamlText s%"      " s%"flags" p.flags ++ yamlText s%"      " s%"output" p.output ++
    yamlText s%"      " s%"path" p.path ++ yamlText s%"      " s%"file_suffix" p.fileSuffix ++
    yamlFlag s%"      " s%"include_imports" p.includeImports ++
    yamlFlag s%"      " s%"include_source_info" p.includeSourceInfo

/-- The settings for linting. -/
def yamlLint (c : ExternalConfig) : List Str :=
  yamlText s%"  " s%"group" c.lintGroup ++
  yamlSection s%"  " s%"ignores" (c.ignores.flatMap fun i =>
    [s%"    - id: " ++ i.1] ++ yamlList s%"      " s%"files" i.2) ++
  yamlSection s%"  " s%"rules" (yamlFlag s%"    " s%"no_default" c.noDefault ++
    yamlList s%"    " s%"add" c.add ++ yamlList s%"    " s%"remove" c.remove) ++
  yamlSection s%"  " s%"file_header" (yamlText s%"    " s%"path" c.fileHeaderPath ++
    yamlBlock s%"    " s%"content" c.fileHeaderContent ++
    yamlFlag s%"    " s%"is_commented" c.fileHeaderIsCommented) ++
  yamlText s%"  " s%"java_package_prefix" c.javaPackagePrefix ++
  yamlFlag s%"  " s%"allow_suppression" c.allowSuppression

/-- A configuration as YAML, line by line, with the keys of internal/settings/settings.go:294-347. -/
def yamlLines (c : ExternalConfig) : List Str :=
  yamlList [] s%"excludes" c.excludes ++
  yamlSection [] s%"protoc" (yamlText s%"  " s%"version" c.version ++
    yamlList s%"  " s%"includes" c.includes ++
    yamlFlag s%"  " s%"allow_unused_imports" c.allowUnusedImports) ++
  yamlSection [] s%"create" (yamlSection s%"  " s%"packages" (c.createPackages.flatMap fun p =>
    [s%"    - directory: " ++ p.1, s%"      name: " ++ p.2])) ++
  yamlSection [] s%"lint" (yamlLint c) ++
  yamlSection [] s%"break" (yamlFlag s%"  " s%"include_beta" c.includeBeta ++
    yamlFlag s%"  " s%"allow_beta_deps" c.allowBetaDeps) ++
  yamlSection [] s%"generate" (yamlSection s%"  " s%"go_options"
      (yamlText s%"    " s%"import_path" c.importPath ++
        yamlSection s%"    " s%"extra_modifiers" (c.extraModifiers.map fun m =>
          s%"      " ++ m.1 ++ s%": " ++ m.2)) ++
    yamlSection s%"  " s%"plugins" (c.plugins.flatMap yamlPlugin))

/-- The plugins in the examples. -/
def examplePlugins : List ExternalPlugin := [
  { name := s%"gogo", type := s%"gogo", flags := s%"plugins=grpc", output := s%"../../.gen/proto/go",
    path := s%"gogo_plugin" },
  { name := s%"yarpc-go", type := s%"gogo", output := s%"../../.gen/proto/go" },
  { name := s%"grpc-gateway", type := s%"go", output := s%"../../.gen/proto/go" },
  { name := s%"java", output := s%"../../.gen/proto/java", fileSuffix := s%"jar" },
  { name := s%"descriptor_set", output := s%"../../.gen/proto/descriptor", fileSuffix := s%"bin",
    includeImports := true, includeSourceInfo := true }]

/-- The configuration that all the examples in the documented file make together. -/
def exampleConfig (version : Str) : ExternalConfig where
  excludes := [s%"path/to/a", s%"path/to/b/file.proto"]
  allowUnusedImports := true
  version := version
  includes := [s%"../../vendor/github.com/grpc-ecosystem/grpc-gateway/third_party/googleapis"]
  createPackages := [(s%".", s%"bar"), (s%"idl/code.uber", s%"uber")]
  lintGroup := s%"uber2"
  ignores := [(s%"RPC_NAMES_CAMEL_CASE", [s%"path/to/foo.proto", s%"path/to/bar.proto"]),
    (s%"SYNTAX_PROTO3", [s%"path/to/dir"])]
  add := [s%"ENUM_NAMES_CAMEL_CASE", s%"ENUM_NAMES_CAPITALIZED"]
  remove := [s%"ENUM_NAMES_CAMEL_CASE"]
  fileHeaderPath := s%"path/to/protobuf_file_header.txt"
  fileHeaderContent := s%"//\n// Acme, Inc. (c) 2019\n//\n"
  fileHeaderIsCommented := true
  javaPackagePrefix := s%"au.com"
  includeBeta := true
  allowBetaDeps := true
  importPath := s%"uber/foo/bar.git/idl/uber"
  extraModifiers := [(s%"google/api/annotations.proto", s%"google.golang.org/genproto/googleapis/api/annotations"),
    (s%"google/api/http.proto", s%"google.golang.org/genproto/googleapis/api/annotations")]
  plugins := examplePlugins

end Verif.Spec
