import Verif.Model.Compiler
import Verif.Spec.Path
import Verif.Spec.List

/-!
# Specification: the arguments of protoc

Terms for the theorems about what protoc is called with.
-/

namespace Verif.Spec

open Verif Str Path File Settings Protoc

/-- The include directories that do not depend on the directory to compile: the configured ones,
then the directory of the well-known types if they are included. -/
def listed (config : CompileConfig) (wkt : Str) : List Str :=
  config.includePaths ++ if config.includeWellKnownTypes then [wkt] else []

/-- When the directory of the configuration is an include directory of its own: it is not
configured as one, and no listed directory is a prefix of the directory to compile. -/
def AddsConfigDir (config : CompileConfig) (wkt dirPath configDirPath : Str) : Prop :=
  configDirPath ∉ config.includePaths ∧ ∀ p ∈ listed config wkt, ¬ p <+: dirPath

/-- `includes` are the include directories for a directory. -/
structure IncludeList (config : CompileConfig) (wkt dirPath configDirPath : Str)
    (includes : List Str) : Prop where
  added : AddsConfigDir config wkt dirPath configDirPath →
    includes = listed config wkt ++ [configDirPath]
  same : ¬ AddsConfigDir config wkt dirPath configDirPath → includes = listed config wkt

/-- What one run of protoc is for: to make a descriptor set, only to compile, or to run a
plugin. -/
inductive Job where
  | descriptorSet
  | check
  | plugin (p : GenPlugin)

/-- The runs for one directory. Without anything to make, protoc still compiles once. -/
def jobs (c : Options) (plugins : List GenPlugin) : List Job :=
  let made := (if c.doFileDescriptorSet then [.descriptorSet] else []) ++
    (if c.doGen then plugins.map .plugin else [])
  if made.isEmpty then [.check] else made

/-- The arguments for a plugin: the output with the flags, the binary if the plugin is not looked
up in the path, and what a descriptor set should have. `flags` and `output` are the flags and the
path of the output. -/
def pluginArgs (plugin : GenPlugin) (binary flags output : Str) : List Str :=
  [s%"--" ++ plugin.name ++ s%"_out=" ++ (if flags = [] then [] else flags ++ s%":") ++ output] ++
  (if binary = [] then [] else [s%"--plugin=protoc-gen-" ++ plugin.name ++ s%"=" ++ binary]) ++
  (if plugin.includeImports then [s%"--include_imports"] else []) ++
  (if plugin.includeSourceInfo then [s%"--include_source_info"] else [])

/-- The path of the output of a plugin for a directory: the directory of the plugin, or for a
plugin that makes a single file, the file named after the directory at the place below the
directory of the plugin that the directory has below that of the configuration. -/
def OutputOf (config : Config) (dirPath : Str) (plugin : GenPlugin) (output : Str) : Prop :=
  (plugin.fileSuffix = [] → output = plugin.outputPath.absPath) ∧
  (plugin.fileSuffix ≠ [] → ∀ cs ds os, Components (cs ++ ds) → Components os →
    config.dirPath = absPath cs → dirPath = absPath (cs ++ ds) →
    plugin.outputPath.absPath = absPath os → '/' ∉ plugin.fileSuffix →
    output = absPath (os ++ ds ++
      [(cs ++ ds).getLast?.getD s%"default" ++ s%"." ++ plugin.fileSuffix]))

/-- The arguments of a run between the include directories and the files. -/
def JobArgs (env : Env) (c : Options) (config : Config) (dirPath temp : Str) (out : List Str) :
    Job → Prop
  | .descriptorSet =>
    out = [s%"-o", temp] ++
      (if c.fileDescriptorSetFullControl ∧ ¬ c.fileDescriptorSetIncludeImports then []
        else [s%"--include_imports"]) ++
      (if c.fileDescriptorSetIncludeSourceInfo then [s%"--include_source_info"] else [])
  | .check => temp = [] ∧ (out = [s%"-o", s%"/dev/null"] ∨ out = [s%"-o", s%"nul"])
  | .plugin p => temp = [] ∧ ∃ binary flags output, env.pluginPath p = .ok binary ∧
      (¬ p.type.isGo → ¬ p.type.isGogo → flags = p.flags) ∧
      OutputOf config dirPath p output ∧ out = pluginArgs p binary flags output

/-- `m` is the command for a directory with its files and a job. -/
structure CommandFor (env : Env) (c : Options) (protoSet : ProtoSet) (d : Str × List ProtoFile)
    (j : Job) (m : CmdMeta) : Prop where
  set : m.protoSet = protoSet
  dirPath : m.dirPath = d.1
  files : m.protoFiles = d.2
  protoc : env.protocPath d.1 = .ok m.protocPath
  args : ∃ (wkt : Str) (includes out : List Str),
    (protoSet.config.compile.includeWellKnownTypes = true → env.wktPath d.1 = .ok wkt) ∧
    IncludeList protoSet.config.compile wkt d.1
      (if protoSet.config.dirPath = [] then protoSet.workDirPath else protoSet.config.dirPath)
      includes ∧
    JobArgs env c protoSet.config d.1 m.descriptorSetTempFilePath out j ∧
    m.args = (includes.flatMap fun i => [s%"-I", i]) ++ out ++ d.2.map (·.path)

/-- `kv` is the file and the Go package of the modifier for a file: the file relative to the
directory of the configuration, and the import path with the output directory of the plugin and
the directory of the file. -/
def ModifierOf (config : Config) (plugin : GenPlugin) (path : Str) (kv : Str × Str) : Prop :=
  ∃ cs ds name, Components (cs ++ ds ++ [name]) ∧ config.dirPath = absPath cs ∧
    path = absPath (cs ++ ds ++ [name]) ∧ kv.1 = join s%"/" (ds ++ [name]) ∧
    kv.2 = clean (joinPath [config.gen.importPath, plugin.outputPath.relPath,
      if ds = [] then s%"." else join s%"/" ds])

/-- The files of a set that are not in a directory. -/
def filesOutside (protoSet : ProtoSet) (dirPath : Str) : List Str :=
  (protoSet.dirPathToFiles.filter fun d => d.1 ≠ dirPath).flatMap fun d => d.2.map (·.path)

/-- The shape of the set of files to compile: every directory once, every file once and below the
directory of the configuration. -/
structure FilesBelow (protoSet : ProtoSet) : Prop where
  files : ∀ d ∈ protoSet.dirPathToFiles, ∀ f ∈ d.2, Below f.path protoSet.config.dirPath
  once : (protoSet.dirPathToFiles.flatMap fun d => d.2.map (·.path)).Nodup

/-- The names of the well-known types. -/
def wellKnownNames : List Str :=
  [s%"any", s%"api", s%"compiler/plugin", s%"descriptor", s%"duration", s%"empty", s%"field_mask",
    s%"source_context", s%"struct", s%"timestamp", s%"type", s%"wrappers"]

/-- The Go package with the code for a well-known type: of golang/protobuf or of gogo/protobuf, or
of genproto for the types that the former do not have. -/
def wellKnownPackage (gogo : Bool) (name : Str) : Str :=
  if name = s%"type" then s%"google.golang.org/genproto/protobuf/ptype"
  else if name ∈ [s%"api", s%"source_context"] ∨ name = s%"field_mask" ∧ gogo = false then
    s%"google.golang.org/genproto/protobuf/" ++ name
  else if name = s%"compiler/plugin" then
    if gogo then s%"github.com/gogo/protobuf/protoc-gen-gogo/plugin"
    else s%"github.com/golang/protobuf/protoc-gen-go/plugin"
  else if name = s%"descriptor" then
    if gogo then s%"github.com/gogo/protobuf/protoc-gen-gogo/descriptor"
    else s%"github.com/golang/protobuf/protoc-gen-go/descriptor"
  else if gogo then s%"github.com/gogo/protobuf/types"
  else s%"github.com/golang/protobuf/ptypes/" ++ name

/-- The well-known types with their Go packages. -/
def wellKnownTypes (gogo : Bool) : List (Str × Str) :=
  wellKnownNames.map fun name =>
    (s%"google/protobuf/" ++ name ++ s%".proto", wellKnownPackage gogo name)

end Verif.Spec
