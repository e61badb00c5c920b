import Verif.Model.ProtocOutput
import Verif.Model.Descriptor

/-!
# Model of the commands the compiler makes

internal/protoc/compiler.go:80-620, internal/wkt/wkt.go. The logging is left out. The
downloader, the creation of temporary files and directories, the lookup of plugins and
the runs of protoc are parameters, see `Env`.
-/

namespace Verif.Protoc

open Verif Str Path File Settings Text

/-! ## wkt.go -/

/-- `FilenameToGoModifierMap`, internal/wkt/wkt.go:46-59. -/
def filenameToGoModifierMap : GoMap Str Str :=
  [
   (s%"google/protobuf/any.proto", s%"github.com/golang/protobuf/ptypes/any"),
   (s%"google/protobuf/api.proto", s%"google.golang.org/genproto/protobuf/api"),
   (s%"google/protobuf/compiler/plugin.proto", s%"github.com/golang/protobuf/protoc-gen-go/plugin"),
   (s%"google/protobuf/descriptor.proto", s%"github.com/golang/protobuf/protoc-gen-go/descriptor"),
   (s%"google/protobuf/duration.proto", s%"github.com/golang/protobuf/ptypes/duration"),
   (s%"google/protobuf/empty.proto", s%"github.com/golang/protobuf/ptypes/empty"),
   (s%"google/protobuf/field_mask.proto", s%"google.golang.org/genproto/protobuf/field_mask"),
   (s%"google/protobuf/source_context.proto", s%"google.golang.org/genproto/protobuf/source_context"),
   (s%"google/protobuf/struct.proto", s%"github.com/golang/protobuf/ptypes/struct"),
   (s%"google/protobuf/timestamp.proto", s%"github.com/golang/protobuf/ptypes/timestamp"),
   (s%"google/protobuf/type.proto", s%"google.golang.org/genproto/protobuf/ptype"),
   (s%"google/protobuf/wrappers.proto", s%"github.com/golang/protobuf/ptypes/wrappers")]

/-- `FilenameToGogoModifierMap`, internal/wkt/wkt.go:62-75. -/
def filenameToGogoModifierMap : GoMap Str Str :=
  [
   (s%"google/protobuf/any.proto", s%"github.com/gogo/protobuf/types"),
   (s%"google/protobuf/api.proto", s%"google.golang.org/genproto/protobuf/api"),
   (s%"google/protobuf/compiler/plugin.proto", s%"github.com/gogo/protobuf/protoc-gen-gogo/plugin"),
   (s%"google/protobuf/descriptor.proto", s%"github.com/gogo/protobuf/protoc-gen-gogo/descriptor"),
   (s%"google/protobuf/duration.proto", s%"github.com/gogo/protobuf/types"),
   (s%"google/protobuf/empty.proto", s%"github.com/gogo/protobuf/types"),
   (s%"google/protobuf/field_mask.proto", s%"github.com/gogo/protobuf/types"),
   (s%"google/protobuf/source_context.proto", s%"google.golang.org/genproto/protobuf/source_context"),
   (s%"google/protobuf/struct.proto", s%"github.com/gogo/protobuf/types"),
   (s%"google/protobuf/timestamp.proto", s%"github.com/gogo/protobuf/types"),
   (s%"google/protobuf/type.proto", s%"google.golang.org/genproto/protobuf/ptype"),
   (s%"google/protobuf/wrappers.proto", s%"github.com/gogo/protobuf/types")]

/-! ## compiler.go -/

/-- The options of `compiler`, internal/protoc/compiler.go:80-91. Those for the downloader
are in `Env`. -/
structure Options where
  doGen : Bool := false
  doFileDescriptorSet : Bool := false
  fileDescriptorSetFullControl : Bool := false
  fileDescriptorSetIncludeImports : Bool := false
  fileDescriptorSetIncludeSourceInfo : Bool := false

/-- What the compiler uses:

* `order`: the order of the loops over maps;
* `goos`: `runtime.GOOS`, `numCPU`: `runtime.NumCPU()`;
* `download`: `newDownloader` and `Download`; `wktPath` and `protocPath`: the calls of
  `WellKnownTypesIncludePath` and `ProtocPath` for a directory;
* `tempFile`: `ioutil.TempFile` and `Name`, given the files that exist;
* `pluginPath`: `GetPath` of a plugin;
* `mkdirAll`: `os.MkdirAll`;
* `readSet`: `ioutil.ReadFile` and `proto.Unmarshal` of a descriptor set. -/
structure Env where
  order : Order
  goos : Str
  numCPU : Nat
  download : Except Err Unit
  wktPath : Str → Except Err Str
  protocPath : Str → Except Err Str
  tempFile : List Str → Except Err Str
  pluginPath : GenPlugin → Except Err Str
  mkdirAll : Str → Except Err Unit
  readSet : Str → Except Err Descriptor.FileSet

/-- The loop of `getIncludes` over the configured paths, internal/protoc/compiler.go:589-598:
whether one is a prefix of the directory and whether one is the configuration directory. -/
def includeFlags (dirPath configDirPath : Str) (includePaths : List Str) : Bool × Bool :=
  includePaths.foldl (fun acc includePath =>
    (if hasPrefix dirPath includePath then true else acc.1,
     if includePath = configDirPath then true else acc.2)) (false, false)

/-- `getIncludes`, internal/protoc/compiler.go:585-619. -/
def getIncludes (wktPath : Except Err Str) (config : CompileConfig) (dirPath configDirPath : Str) :
    Except Err (List Str) :=
  let includes := config.includePaths
  let (fileInIncludePath, includedConfigDirPath) := includeFlags dirPath configDirPath includes
  if config.includeWellKnownTypes then
    match wktPath with
    | .error e => .error e
    | .ok wkt =>
      let includes := includes ++ [wkt]
      let fileInIncludePath := if hasPrefix dirPath wkt then true else fileInIncludePath
      if !fileInIncludePath && !includedConfigDirPath then .ok (includes ++ [configDirPath])
      else .ok includes
  else if !fileInIncludePath && !includedConfigDirPath then .ok (includes ++ [configDirPath])
  else .ok includes

/-- The modifier of one file, internal/protoc/compiler.go:554-560: its path and its Go
package. -/
def modifierOf (config : Config) (plugin : GenPlugin) (f : ProtoFile) : Str × Str :=
  let path := (rel config.dirPath f.path).getD f.path
  (path, clean (joinPath [config.gen.importPath, plugin.outputPath.relPath, dir path]))

/-- The text of a modifier, internal/protoc/compiler.go:564, :576 and :580. -/
def modifierFlag (kv : Str × Str) : Str := s%"M" ++ kv.1 ++ s%"=" ++ kv.2

/-- The map of internal/protoc/compiler.go:545-563. -/
def modifiersFor (o : Order) (site : Site) (protoSet : ProtoSet) (dirPath : Str)
    (plugin : GenPlugin) : GoMap Str Str :=
  (o.ord (site ++ [s%"DirPathToFiles"]) protoSet.dirPathToFiles).foldl (fun modifiers sub =>
    if sub.1 ≠ dirPath then
      sub.2.foldl (fun modifiers f =>
        let kv := modifierOf protoSet.config plugin f
        modifiers.set kv.1 kv.2) modifiers
    else modifiers) []

/-- The choice of internal/protoc/compiler.go:570-574. -/
def wktModifiers (t : GenPluginType) : GoMap Str Str :=
  if t.isGo then filenameToGoModifierMap
  else if t.isGogo then filenameToGogoModifierMap
  else []

/-- The flags `goFlags` of internal/protoc/compiler.go:540-582. -/
def goFlags (o : Order) (site : Site) (protoSet : ProtoSet) (dirPath : Str) (plugin : GenPlugin) :
    List Str :=
  let flags := if plugin.flags ≠ [] then [plugin.flags] else []
  let modifiers := modifiersFor o site protoSet dirPath plugin
  let flags := flags ++ (o.ord (site ++ [s%"modifiers"]) modifiers).map modifierFlag
  let flags :=
    if protoSet.config.compile.includeWellKnownTypes then
      flags ++ (o.ord (site ++ [s%"wktModifiers"]) (wktModifiers plugin.type)).map modifierFlag
    else flags
  flags ++ (o.ord (site ++ [s%"ExtraModifiers"]) protoSet.config.gen.extraModifiers).map modifierFlag

/-- `getPluginFlagSetProtoFlags`, internal/protoc/compiler.go:531-583. -/
def getPluginFlagSetProtoFlags (o : Order) (site : Site) (protoSet : ProtoSet) (dirPath : Str)
    (plugin : GenPlugin) : Except Err Str :=
  if !plugin.type.isGo && !plugin.type.isGogo then .ok plugin.flags
  else if plugin.type.isGo && plugin.type.isGogo then
    .error (s%"internal error: plugin " ++ plugin.name ++ s%" is both a go and gogo plugin")
  else .ok (join s%"," (goFlags o site protoSet dirPath plugin))

/-- The error of internal/protoc/compiler.go:515; the text of the wrapped error is left out. -/
def noRelError (dirPath configDirPath : Str) : Err :=
  s%"could not find relative path for " ++ quote dirPath ++ s%" to " ++ quote configDirPath ++
    s%", this is a system error, please file a bug at github.com/uber/prototool/issues/new: "

/-- `getRelOutputFilePath`, internal/protoc/compiler.go:510-526. -/
def getRelOutputFilePath (protoSet : ProtoSet) (dirPath fileSuffix : Str) : Except Err Str :=
  match rel protoSet.config.dirPath dirPath with
  | none => .error (noRelError dirPath protoSet.config.dirPath)
  | some relPath =>
    let base_ :=
      if relPath = [] ∨ relPath = s%"." then
        if protoSet.config.dirPath = s%"/" then s%"default" else base protoSet.config.dirPath
      else base relPath
    .ok (joinPath [relPath, base_ ++ s%"." ++ fileSuffix])

/-- The output path of a plugin, internal/protoc/compiler.go:482-489. -/
def outputPathFor (protoSet : ProtoSet) (dirPath : Str) (plugin : GenPlugin) : Except Err Str :=
  if plugin.fileSuffix ≠ [] then
    match getRelOutputFilePath protoSet dirPath plugin.fileSuffix with
    | .error e => .error e
    | .ok relOutputFilePath => .ok (joinPath [plugin.outputPath.absPath, relOutputFilePath])
  else .ok plugin.outputPath.absPath

/-- `getPluginFlagSet`, internal/protoc/compiler.go:477-508. -/
def getPluginFlagSet (env : Env) (site : Site) (protoSet : ProtoSet) (dirPath : Str)
    (plugin : GenPlugin) : Except Err (List Str) :=
  match getPluginFlagSetProtoFlags env.order site protoSet dirPath plugin with
  | .error e => .error e
  | .ok protoFlags =>
    match outputPathFor protoSet dirPath plugin with
    | .error e => .error e
    | .ok outputPath =>
      let flagSet :=
        if protoFlags.length > 0 then
          [s%"--" ++ plugin.name ++ s%"_out=" ++ protoFlags ++ s%":" ++ outputPath]
        else [s%"--" ++ plugin.name ++ s%"_out=" ++ outputPath]
      match env.pluginPath plugin with
      | .error e => .error e
      | .ok path =>
        let flagSet :=
          if path ≠ [] then flagSet ++ [s%"--plugin=protoc-gen-" ++ plugin.name ++ s%"=" ++ path]
          else flagSet
        let flagSet := if plugin.includeImports then flagSet ++ [s%"--include_imports"] else flagSet
        .ok (if plugin.includeSourceInfo then flagSet ++ [s%"--include_source_info"] else flagSet)

/-- The loop of `getPluginFlagSets`, internal/protoc/compiler.go:467-473; the number of the
plugin is part of the site. -/
def pluginFlagSetsFrom (env : Env) (site : Site) (protoSet : ProtoSet) (dirPath : Str) :
    Nat → List GenPlugin → Except Err (List (List Str))
  | _, [] => .ok []
  | i, plugin :: plugins =>
    match getPluginFlagSet env (site ++ [natStr i]) protoSet dirPath plugin with
    | .error e => .error e
    | .ok flagSet =>
      match pluginFlagSetsFrom env site protoSet dirPath (i + 1) plugins with
      | .error e => .error e
      | .ok flagSets => .ok (flagSet :: flagSets)

/-- `getPluginFlagSets`, internal/protoc/compiler.go:461-475. -/
def getPluginFlagSets (env : Env) (c : Options) (protoSet : ProtoSet) (dirPath : Str) :
    Except Err (List (List Str)) :=
  if !c.doGen || protoSet.config.gen.plugins.length = 0 then .ok []
  else pluginFlagSetsFrom env [s%"getPluginFlagSets", dirPath] protoSet dirPath 0
    protoSet.config.gen.plugins

/-- `devNull`, internal/protoc/compiler.go:900-909. -/
def devNull (goos : Str) : Except Err Str :=
  if goos = s%"darwin" ∨ goos = s%"linux" then .ok s%"/dev/null"
  else if goos = s%"windows" then .ok s%"nul"
  else .error (s%"unsupported operating system: " ++ goos)

/-- The arguments before the output, internal/protoc/compiler.go:340-343. -/
def includeArgs (includes : List Str) : List Str := includes.flatMap fun i => [s%"-I", i]

/-- The arguments after the output file for a temporary file,
internal/protoc/compiler.go:367-377. -/
def setArgs (c : Options) : List Str :=
  (if !c.fileDescriptorSetFullControl || c.fileDescriptorSetIncludeImports then
    [s%"--include_imports"] else []) ++
  (if c.fileDescriptorSetIncludeSourceInfo then [s%"--include_source_info"] else [])

/-- The temporary files that exist, the commands made so far, and the error if there is one. -/
abbrev Made := List Str × List CmdMeta × Option Err

/-- The body of the loop of `getCmdMetas`, internal/protoc/compiler.go:317-406, and
`getDescriptorSetFilePath`, :441-455: the temporary files after it, the commands it adds, and
the error it returns. The commands append to the same slice `args`; `exec.Command` copies its
arguments, so that they do not overwrite each other's. -/
def cmdMetasForDir (env : Env) (c : Options) (protoSet : ProtoSet) (live : List Str)
    (dirPath : Str) (protoFiles : List ProtoFile) : Made :=
  let configDirPath :=
    if protoSet.config.dirPath = [] then protoSet.workDirPath else protoSet.config.dirPath
  match getIncludes (env.wktPath dirPath) protoSet.config.compile dirPath configDirPath with
  | .error e => (live, [], some e)
  | .ok includes =>
    let args := includeArgs includes
    match env.protocPath dirPath with
    | .error e => (live, [], some e)
    | .ok protocPath =>
      let files := protoFiles.map (·.path)
      let first : Made :=
        if c.doFileDescriptorSet then
          match env.tempFile live with
          | .error e => (live, [], some e)
          | .ok temp =>
            (live ++ [temp],
              [⟨protocPath, args ++ [s%"-o", temp] ++ setArgs c ++ files, protoSet, dirPath,
                protoFiles, temp⟩], none)
        else if c.doGen && protoSet.config.gen.plugins.length > 0 then (live, [], none)
        else
          match devNull env.goos with
          | .error e => (live, [], some e)
          | .ok out =>
            (live, [⟨protocPath, args ++ [s%"-o", out] ++ files, protoSet, dirPath, protoFiles, []⟩],
              none)
      match first with
      | (live, cmds, some e) => (live, cmds, some e)
      | (live, cmds, none) =>
        match getPluginFlagSets env c protoSet dirPath with
        | .error e => (live, cmds, some e)
        | .ok flagSets =>
          (live, cmds ++ flagSets.map fun flagSet =>
            ⟨protocPath, args ++ flagSet ++ files, protoSet, dirPath, protoFiles, []⟩, none)

/-- The loop of `getCmdMetas`, internal/protoc/compiler.go:316-406. -/
def cmdMetasLoop (env : Env) (c : Options) (protoSet : ProtoSet) :
    List (Str × List ProtoFile) → List Str → List CmdMeta → Made
  | [], live, cmds => (live, cmds, none)
  | d :: ds, live, cmds =>
    if !hasPrefix d.1 protoSet.dirPath then cmdMetasLoop env c protoSet ds live cmds
    else
      match cmdMetasForDir env c protoSet live d.1 d.2 with
      | (live, added, some e) => (live, cmds ++ added, some e)
      | (live, added, none) => cmdMetasLoop env c protoSet ds live (cmds ++ added)

/-- `cmdMeta.Clean` and `tryRemoveTempFile`, internal/protoc/compiler.go:937-945. A file that
cannot be removed is left out. -/
def clean1 (live : List Str) (m : CmdMeta) : List Str :=
  if m.descriptorSetTempFilePath ≠ [] then live.filter (· ≠ m.descriptorSetTempFilePath) else live

/-- `cleanCmdMetas`, internal/protoc/compiler.go:919-923. -/
def cleanCmdMetas (live : List Str) (cmds : List CmdMeta) : List Str := cmds.foldl clean1 live

/-- `getCmdMetas`, internal/protoc/compiler.go:299-408: the temporary files after it and the
result. -/
def getCmdMetas (env : Env) (c : Options) (protoSet : ProtoSet) (live : List Str) :
    List Str × Except Err (List CmdMeta) :=
  match env.download with
  | .error e => (live, .error e)
  | .ok () =>
    match cmdMetasLoop env c protoSet (env.order.ord [s%"getCmdMetas"] protoSet.dirPathToFiles)
        live [] with
    | (live, cmds, some e) => (cleanCmdMetas live cmds, .error e)
    | (live, cmds, none) => (live, .ok cmds)

/-- `cmdMeta.String`, internal/protoc/compiler.go:933-935. -/
def CmdMeta.string (m : CmdMeta) : Str := join s%" " (m.protocPath :: m.args)

/-- `ProtocCommands`, internal/protoc/compiler.go:189-204. -/
def protocCommands (env : Env) (c : Options) (protoSet : ProtoSet) (live : List Str) :
    List Str × Except Err (List Str) :=
  match getCmdMetas env c protoSet live with
  | (live, .error e) => (live, .error e)
  | (live, .ok cmds) => (cleanCmdMetas live cmds, .ok (cmds.map CmdMeta.string))

/-- The set `genDirs` of `makeGenDirs` for a plugin, internal/protoc/compiler.go:208-227. -/
def genDirsFor (protoSet : ProtoSet) (plugin : GenPlugin) :
    List (Str × List ProtoFile) → List Str → Except Err (List Str)
  | [], genDirs => .ok genDirs
  | d :: ds, genDirs =>
    if !hasPrefix d.1 protoSet.dirPath then genDirsFor protoSet plugin ds genDirs
    else
      match getRelOutputFilePath protoSet d.1 plugin.fileSuffix with
      | .error e => .error e
      | .ok relOutputFilePath =>
        genDirsFor protoSet plugin ds
          (setInsert genDirs (dir (joinPath [plugin.outputPath.absPath, relOutputFilePath])))

/-- The set `genDirs` of `makeGenDirs`, internal/protoc/compiler.go:207-227. -/
def genDirs (o : Order) (protoSet : ProtoSet) : Nat → List GenPlugin → List Str →
    Except Err (List Str)
  | _, [], dirs => .ok dirs
  | i, plugin :: plugins, dirs =>
    if plugin.fileSuffix = [] then
      genDirs o protoSet (i + 1) plugins (setInsert dirs plugin.outputPath.absPath)
    else
      match genDirsFor protoSet plugin
          (o.ord [s%"makeGenDirs", natStr i] protoSet.dirPathToFiles) dirs with
      | .error e => .error e
      | .ok dirs => genDirs o protoSet (i + 1) plugins dirs

/-- The loop of internal/protoc/compiler.go:229-238: the directories made, and the error. -/
def mkdirs (mkdirAll : Str → Except Err Unit) : List Str → List Str × Option Err
  | [] => ([], none)
  | d :: ds =>
    match mkdirAll d with
    | .error e => ([], some e)
    | .ok () =>
      let r := mkdirs mkdirAll ds
      (d :: r.1, r.2)

/-- `makeGenDirs`, internal/protoc/compiler.go:206-240: the directories made, and the error. -/
def makeGenDirs (env : Env) (protoSet : ProtoSet) : List Str × Option Err :=
  match genDirs env.order protoSet 0 protoSet.config.gen.plugins [] with
  | .error e => ([], some e)
  | .ok dirs => mkdirs env.mkdirAll (env.order.ord [s%"makeGenDirs"] dirs)

/-! ## Running protoc -/

/-- How a run of protoc ends for `runCmdMeta`: the process could not be run, it ended with an
exit status and an output (with `none` for status 0 and the text of the `exec.ExitError`
otherwise), or a signal came first, with what `Process.Kill` returned. A signal before the
process is started is a nil dereference and left out. -/
inductive Ended where
  | notRun (e : Err)
  | exited (status : Option Err) (output : Str)
  | signalled (kill : Option Err)

/-- `runCmdMeta`, internal/protoc/compiler.go:242-297. -/
def runCmdMeta (m : CmdMeta) (ended : Ended) : List Failure × Option Err :=
  match ended with
  | .signalled kill => ([], kill)
  | .notRun e => ([], some e)
  | .exited status output =>
    let failures := parseProtocOutput m (trimSpace output)
    match failures, status with
    | [], some e => ([], some e)
    | failures, _ => (failures, none)

/-- `FileDescriptorSet`, internal/protoc/protoc.go:117-132. -/
structure FileDescriptorSet where
  set : Descriptor.FileSet
  protoSet : ProtoSet
  dirPath : Str
  protoFiles : List ProtoFile

/-- `getFileDescriptorSet`, internal/protoc/compiler.go:880-898. -/
def getFileDescriptorSet (env : Env) (m : CmdMeta) : Except Err (Option FileDescriptorSet) :=
  if m.descriptorSetTempFilePath = [] then .ok none
  else
    match env.readSet m.descriptorSetTempFilePath with
    | .error e => .error e
    | .ok set => .ok (some ⟨set, m.protoSet, m.dirPath, m.protoFiles⟩)

/-- The loop of internal/protoc/compiler.go:172-183. -/
def getFileDescriptorSets (env : Env) : List CmdMeta → Except Err (List FileDescriptorSet)
  | [] => .ok []
  | m :: ms =>
    match getFileDescriptorSet env m with
    | .error e => .error e
    | .ok set =>
      match getFileDescriptorSets env ms with
      | .error e => .error e
      | .ok sets => .ok (set.toList ++ sets)

/-- `CompileResult`, internal/protoc/protoc.go:153-161. -/
structure CompileResult where
  failures : List Failure
  fileDescriptorSets : List FileDescriptorSet

/-- What `Compile` does after `wg.Wait()`, internal/protoc/compiler.go:147-186. -/
def afterWait (env : Env) (cmds : List CmdMeta) (failures : List Failure) (errs : List Err) :
    Except Err CompileResult :=
  if errs.length > 0 then .error (join s%"\n" (errs.filter (· ≠ [])))
  else if failures.length > 0 then .ok ⟨sortFailures failures, []⟩
  else
    match getFileDescriptorSets env cmds with
    | .error e => .error e
    | .ok sets => .ok ⟨[], sets⟩

end Verif.Protoc
