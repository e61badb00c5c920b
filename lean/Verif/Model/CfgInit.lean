import Verif.Go.Keyed

/-!
# Model of internal/cfginit

The templates are given line by line, a line as a list of texts and placeholders. The package uses
html/template, so that the values are escaped for HTML.
-/

namespace Verif.CfgInit

open Verif Str

/-- A part of a template. -/
inductive Part where
  | text (t : Str)
  /-- `{{.V}}` -/
  | v
  /-- `{{.ProtocVersion}}` -/
  | version

/-- `baseTmpl`, internal/cfginit/cfginit.go:32-36. -/
def baseTmpl : List (List Part) := [
  [.text s%"protoc:"],
  [.text s%"  version: ", .version],
  [.text s%"lint:"],
  [.text s%"  group: uber2"],
  []]

/-- Part of `documentTmpl`, internal/cfginit/cfginit.go:38-62. -/
def documentProtoc : List (List Part) := [
  [.text s%"# Paths to exclude when searching for Protobuf files."],
  [.text s%"# These can either be file or directory names."],
  [.text s%"# If there is a directory name, that directory and all sub-directories will be excluded."],
  [.v, .text s%"excludes:"],
  [.v, .text s%"  - path/to/a"],
  [.v, .text s%"  - path/to/b/file.proto"],
  [],
  [.text s%"# Protoc directives."],
  [.text s%"protoc:"],
  [.text s%"  # The Protobuf version to use from https://github.com/protocolbuffers/protobuf/releases."],
  [.text s%"  # By default use ", .version, .text s%"."],
  [.text s%"  # You probably want to set this to make your builds completely reproducible."],
  [.text s%"  version: ", .version],
  [],
  [.text s%"  # Additional paths to include with -I to protoc."],
  [.text s%"  # By default, the directory of the config file is included,"],
  [.text s%"  # or the current directory if there is no config file."],
  [.text s%"  ", .v, .text s%"includes:"],
  [.text s%"  ", .v, .text s%"  - ../../vendor/github.com/grpc-ecosystem/grpc-gateway/third_party/googleapis"],
  [],
  [],
  [.text s%"  # If not set, compile will fail if there are unused imports."],
  [.text s%"  # Setting this will ignore unused imports."],
  [.text s%"  ", .v, .text s%"allow_unused_imports: true"],
  []]

/-- Part of `documentTmpl`, internal/cfginit/cfginit.go:63-75. -/
def documentCreate : List (List Part) := [
  [.text s%"# Create directives."],
  [.v, .text s%"create:"],
  [.text s%"  # List of mappings from relative directory to base package."],
  [.text s%"  # This affects how packages are generated with create."],
  [.text s%"  ", .v, .text s%"packages:"],
  [.text s%"    # This means that a file created \"foo.proto\" in the current directory will have package \"bar\"."],
  [.text s%"    # A file created \"a/b/foo.proto\" will have package \"bar.a.b\"."],
  [.text s%"    ", .v, .text s%"- directory: ."],
  [.text s%"    ", .v, .text s%"  name: bar"],
  [.text s%"    # This means that a file created \"idl/code.uber/a/b/c.proto\" will have package \"uber.a.b\"."],
  [.text s%"    ", .v, .text s%"- directory: idl/code.uber"],
  [.text s%"    ", .v, .text s%"  name: uber"],
  []]

/-- Part of `documentTmpl`, internal/cfginit/cfginit.go:76-113. -/
def documentLint : List (List Part) := [
  [.text s%"# Lint directives."],
  [.text s%"lint:"],
  [.text s%"  # The lint group to use."],
  [.text s%"  # Available groups: \"uber1\", \"uber2\", \"google\", \"empty\"."],
  [.text s%"  # The default group is the \"uber1\" lint group for backwards compatibility reasons,"],
  [.text s%"  # however we recommend using the \"uber2\" lint group."],
  [.text s%"  # The special group \"empty\" has no linters, allowing you to manually specify all"],
  [.text s%"  # lint rules in lint.rules.add."],
  [.text s%"  # Run prototool lint --list-all-lint-groups to see all available lint groups."],
  [.text s%"  # Run prototool lint --list-lint-group GROUP to list the linters in the given lint group."],
  [.text s%"  group: uber2"],
  [],
  [.text s%"  # Linter files to ignore."],
  [.text s%"  # These can either be file or directory names."],
  [.text s%"  # If there is a directory name, that directory and all sub-directories will be ignored."],
  [.v, .text s%"  ignores:"],
  [.v, .text s%"    - id: RPC_NAMES_CAMEL_CASE"],
  [.v, .text s%"      files:"],
  [.v, .text s%"        - path/to/foo.proto"],
  [.v, .text s%"        - path/to/bar.proto"],
  [.v, .text s%"    - id: SYNTAX_PROTO3"],
  [.v, .text s%"      files:"],
  [.v, .text s%"        - path/to/dir"],
  [],
  [.text s%"  # Linter rules."],
  [.text s%"  # Run prototool lint --list-all-linters to see all available linters."],
  [.text s%"  # Run prototool lint --list-linters to see the currently configured linters."],
  [.v, .text s%"  rules:"],
  [],
  [.text s%"    # The specific linters to add."],
  [.v, .text s%"    add:"],
  [.v, .text s%"      - ENUM_NAMES_CAMEL_CASE"],
  [.v, .text s%"      - ENUM_NAMES_CAPITALIZED"],
  [],
  [.text s%"    # The specific linters to remove."],
  [.v, .text s%"    remove:"],
  [.v, .text s%"      - ENUM_NAMES_CAMEL_CASE"],
  []]

/-- Part of `documentTmpl`, internal/cfginit/cfginit.go:114-140. -/
def documentHeader : List (List Part) := [
  [.text s%"  # The path to the file header or the file header content for all Protobuf files."],
  [.text s%"  # If either path or content is set and the FILE_HEADER linter is turned on,"],
  [.text s%"  # files will be checked to begin with the given header, and format --fix"],
  [.text s%"  # will place this header before the syntax declaration. Note that"],
  [.text s%"  # format --fix will delete anything before the syntax declaration"],
  [.text s%"  # if this is set."],
  [.text s%"  #"],
  [.text s%"  # Set path to use a file's contents for the header. Path must be relative."],
  [.text s%"  # Set content to directly specify the header."],
  [.text s%"  # **Both path and content cannot be set at the same time. They are only done"],
  [.text s%"  # so here for example purposes.**"],
  [.text s%"  #"],
  [.text s%"  # If is_commented is set, this file is assumed to already have comments"],
  [.text s%"  # and will be added directly. If is_commented is not set, \"// \" will be"],
  [.text s%"  # added before every line."],
  [.v, .text s%"  file_header:"],
  [.v, .text s%"    path: path/to/protobuf_file_header.txt"],
  [.v, .text s%"    content: |"],
  [.v, .text s%"      //"],
  [.v, .text s%"      // Acme, Inc. (c) 2019"],
  [.v, .text s%"      //"],
  [.v, .text s%"    is_commented: true"],
  [.text s%"  # Override the default java_package file option prefix of \"com\"."],
  [.text s%"  # If this is set, this will affect lint, create, and format --fix to use."],
  [.text s%"  # this prefix instead of \"com\"."],
  [.v, .text s%"  java_package_prefix: au.com"],
  []]

/-- Part of `documentTmpl`, internal/cfginit/cfginit.go:141-152. -/
def documentBreak : List (List Part) := [
  [.text s%"# Breaking change detector directives."],
  [.v, .text s%"break:"],
  [.text s%"  # Include beta packages in breaking change detection."],
  [.text s%"  # Beta packages have the form \"foo.bar.vMAJORbetaBETA\" where MAJOR > 0 and BETA > 0."],
  [.text s%"  # By default, beta packages are ignored."],
  [.text s%"  ", .v, .text s%"include_beta: true"],
  [.text s%"  # Allow stable packages to depend on beta packages."],
  [.text s%"  # By default, the breaking change detector will error if a stable package"],
  [.text s%"  # depends on a breaking package."],
  [.text s%"  # If include_beta is true, this is implicitly set."],
  [.text s%"  ", .v, .text s%"allow_beta_deps: true"],
  []]

/-- Part of `documentTmpl`, internal/cfginit/cfginit.go:153-165. -/
def documentGenerate : List (List Part) := [
  [.text s%"# Code generation directives."],
  [.v, .text s%"generate:"],
  [.text s%"  # Options that will apply to all plugins of type go and gogo."],
  [.v, .text s%"  go_options:"],
  [.text s%"    # The base import path. This should be the go path of the prototool.yaml file."],
  [.text s%"    # This is required if you have any go plugins."],
  [.v, .text s%"    import_path: uber/foo/bar.git/idl/uber"],
  [],
  [.text s%"    # Extra modifiers to include with Mfile=package."],
  [.v, .text s%"    extra_modifiers:"],
  [.v, .text s%"      google/api/annotations.proto: google.golang.org/genproto/googleapis/api/annotations"],
  [.v, .text s%"      google/api/http.proto: google.golang.org/genproto/googleapis/api/annotations"],
  []]

/-- Part of `documentTmpl`, internal/cfginit/cfginit.go:166-205. -/
def documentPlugins : List (List Part) := [
  [.text s%"  # The list of plugins."],
  [.v, .text s%"  plugins:"],
  [.text s%"      # The plugin name. This will go to protoc with --name_out, so it either needs"],
  [.text s%"      # to be a built-in name (like java), or a plugin name with a binary"],
  [.text s%"      # protoc-gen-name."],
  [.v, .text s%"    - name: gogo"],
  [],
  [.text s%"      # The type, if any. Valid types are go, gogo."],
  [.text s%"      # Use go if your plugin is a standard Golang plugin"],
  [.text s%"      # that uses github.com/golang/protobuf imports, use gogo"],
  [.text s%"      # if it uses github.com/gogo/protobuf imports. For protoc-gen-go"],
  [.text s%"      # use go, For protoc-gen-gogo, protoc-gen-gogoslick, etc, use gogo."],
  [.v, .text s%"      type: gogo"],
  [],
  [.text s%"      # Extra flags to specify."],
  [.text s%"      # The only flag you will generally set is plugins=grpc for Golang."],
  [.text s%"      # The Mfile=package flags are automatically set."],
  [.text s%"      # ** Otherwise, generally do not set this unless you know what you are doing. **"],
  [.v, .text s%"      flags: plugins=grpc"],
  [],
  [.text s%"      # The path to output generated files to."],
  [.text s%"      # If the directory does not exist, it will be created when running generation."],
  [.text s%"      # This needs to be a relative path."],
  [.v, .text s%"      output: ../../.gen/proto/go"],
  [],
  [.text s%"      # Optional override for the plugin path. For example, if you set set path to"],
  [.text s%"      # /usr/local/bin/gogo_plugin\", prototool will add the"],
  [.text s%"      # \"--plugin=protoc-gen-gogo=/usr/local/bin/gogo_plugin\" flag to protoc calls."],
  [.text s%"      # If set to \"gogo_plugin\", prototool will search your path for \"gogo_plugin\",."],
  [.text s%"      # and fail if \"gogo_plugin\" cannot be found."],
  [.v, .text s%"      path: gogo_plugin"],
  [],
  [.v, .text s%"    - name: yarpc-go"],
  [.v, .text s%"      type: gogo"],
  [.v, .text s%"      output: ../../.gen/proto/go"],
  [],
  [.v, .text s%"    - name: grpc-gateway"],
  [.v, .text s%"      type: go"],
  [.v, .text s%"      output: ../../.gen/proto/go"],
  []]

/-- Part of `documentTmpl`, internal/cfginit/cfginit.go:206-227. -/
def documentJava : List (List Part) := [
  [.v, .text s%"    - name: java"],
  [.v, .text s%"      output: ../../.gen/proto/java"],
  [],
  [.text s%"      # Optional file suffix for plugins that output a single file as opposed"],
  [.text s%"      # to writing a set of files to a directory. This is only valid in two"],
  [.text s%"      # known cases:"],
  [.text s%"      # - For the java plugin, set this to \"jar\" to produce jars"],
  [.text s%"      #   https://developers.google.com/protocol-buffers/docs/reference/java-generated#invocation"],
  [.text s%"      # - For the descriptor_set plugin, this is required as using descriptor_set"],
  [.text s%"      #   requires a file to be given instead of a directory."],
  [.v, .text s%"      file_suffix: jar"],
  [],
  [.text s%"      # descriptor_set is special, and uses the --descriptor_set_out flag on protoc."],
  [.text s%"      # file_suffix is required, and the options include_imports and include_source_info"],
  [.text s%"      # can be optionally set to add the flags --include_imports and --include_source-info."],
  [.text s%"      # The include_imports and include_source_info options are not valid for any"],
  [.text s%"      # other plugin name."],
  [.v, .text s%"    - name: descriptor_set"],
  [.v, .text s%"      output: ../../.gen/proto/descriptor"],
  [.v, .text s%"      file_suffix: bin"],
  [.v, .text s%"      include_imports: true"],
  [.v, .text s%"      include_source_info: true"]]

/-- `documentTmpl`, internal/cfginit/cfginit.go:38-227. -/
def documentTmpl : List (List Part) :=
  documentProtoc ++ documentCreate ++ documentLint ++ documentHeader ++ documentBreak ++ documentGenerate ++ documentPlugins ++ documentJava
/-- The escaping of a value outside of tags, `htmlReplacementTable` of html/template. -/
def htmlEscape (s : Str) : Str := s.flatMap fun c =>
  if c = '\x00' then s%"\uFFFD"
  else if c = '"' then s%"&#34;"
  else if c = '&' then s%"&amp;"
  else if c = '\'' then s%"&#39;"
  else if c = '+' then s%"&#43;"
  else if c = '<' then s%"&lt;"
  else if c = '>' then s%"&gt;"
  else [c]

/-- A part with the values put in. -/
def Part.render (v version : Str) : Part → Str
  | .text t => t
  | .v => htmlEscape v
  | .version => htmlEscape version

/-- `tmpl.Execute`, internal/cfginit/cfginit.go:253. It cannot fail for these templates. -/
def execute (tmpl : List (List Part)) (v version : Str) : Str :=
  join s%"\n" (tmpl.map fun line => line.flatMap (Part.render v version))

/-- `Generate`, internal/cfginit/cfginit.go:238-257. -/
def generate (protocVersion : Str) (uncomment document : Bool) : Str :=
  let document := if uncomment then true else document
  let v := if !uncomment then s%"#" else []
  let tmpl := if document then documentTmpl else baseTmpl
  execute tmpl v protocVersion

end Verif.CfgInit
