import Verif.Go.Path
import Verif.Go.SortSlice
import Verif.Go.Strconv
import Verif.Go.Keyed
import Verif.Model.Strs
import Verif.Model.Breaking
import Verif.Model.ExternalConfig

/-!
# Model of internal/settings

`Host` is what the code asks of the operating system and of the YAML library. Paths are Unix paths.
-/

namespace Verif.Settings

open Verif Str Path

/-! ## settings.go -/

/-- `GenPluginType`, internal/settings/settings.go:35-44 and :78. -/
inductive GenPluginType where
  | none | go | gogo
deriving DecidableEq, Repr

/-- `ParseGenPluginType`, internal/settings/settings.go:59-63 and :107-113. -/
def parseGenPluginType (s : Str) : Except Err GenPluginType :=
  let t := toLower s
  if t = [] then .ok .none
  else if t = s%"go" then .ok .go
  else if t = s%"gogo" then .ok .gogo
  else .error (s%"could not parse " ++ s ++ s%" to a GenPluginType")

/-- `GenPluginType.IsGo`, internal/settings/settings.go:65-69 and :94-96. -/
def GenPluginType.isGo (t : GenPluginType) : Bool := t = .go

/-- `GenPluginType.IsGogo`, internal/settings/settings.go:70-74 and :100-102. -/
def GenPluginType.isGogo (t : GenPluginType) : Bool := t = .gogo

/-- `CompileConfig`, internal/settings/settings.go:151-164. -/
structure CompileConfig where
  protobufVersion : Str
  includePaths : List Str
  includeWellKnownTypes : Bool
  allowUnusedImports : Bool

/-- `LintConfig`, internal/settings/settings.go:174-212. -/
structure LintConfig where
  group : Str
  noDefault : Bool
  includeIDs : List Str
  excludeIDs : List Str
  ignoreIDToFilePaths : GoMap Str (List Str)
  fileHeader : Str
  javaPackagePrefix : Str
  allowSuppression : Bool

/-- `OutputPath`, internal/settings/settings.go:285-291. -/
structure OutputPath where
  relPath : Str
  absPath : Str
deriving DecidableEq

/-- `GenPlugin`, internal/settings/settings.go:244-282. `path` is the argument of the
lookup done by `GetPath`. -/
structure GenPlugin where
  name : Str
  path : Str
  type : GenPluginType
  flags : Str
  outputPath : OutputPath
  fileSuffix : Str
  includeImports : Bool
  includeSourceInfo : Bool
deriving DecidableEq

/-- `GenConfig` with `GenGoPluginOptions`, internal/settings/settings.go:224-241. -/
structure GenConfig where
  importPath : Str
  extraModifiers : GoMap Str Str
  plugins : List GenPlugin

/-- `Config`, internal/settings/settings.go:127-148, with `CreateConfig` :167-171 written
out as its only field. -/
structure Config where
  dirPath : Str
  excludePrefixes : List Str
  compile : CompileConfig
  dirPathToBasePackage : GoMap Str Str
  lint : LintConfig
  break_ : Breaking.BreakConfig
  gen : GenConfig

/-- The file system and a parser: `os.Stat` without error, `ioutil.ReadFile` and
`yaml.UnmarshalStrict`. -/
structure Host where
  stat : Str → Bool
  readFile : Str → Except Err Str
  parseYAML : Str → Except Err ExternalConfig

/-! ## config_provider.go: finding the file -/

/-- What the verb `%v` of package `fmt` makes of a list of strings. -/
def listText (l : List Str) : Str := s%"[" ++ join s%" " l ++ s%"]"

/-- `ConfigFilenames`, internal/settings/settings.go:33 and :49-52. -/
def configFilenames : List Str := [s%"prototool.yaml", s%"prototool.json"]

/-- `getSingleFilePathForDir`, internal/settings/config_provider.go:139-155. The empty
string means that there is no file. -/
def getSingleFilePathForDir (h : Host) (dirPath : Str) : Except Err Str :=
  match (configFilenames.map fun n => joinPath [dirPath, n]).filter h.stat with
  | [] => .ok []
  | [filePath] => .ok filePath
  | filePaths => .error (s%"multiple configuration files in the same directory: " ++ listText filePaths)

/-- The loop of `getFilePathForDir`, internal/settings/config_provider.go:120-134. The
first argument bounds the number of iterations; `none` is a loop that did not end. -/
def getFilePathGo (h : Host) : Nat → Str → Option (Except Err Str)
  | 0, _ => none
  | n + 1, dirPath =>
    match getSingleFilePathForDir h dirPath with
    | .error e => some (.error e)
    | .ok filePath =>
      if filePath ≠ [] then some (.ok filePath)
      else if dirPath = s%"/" then some (.ok [])
      else getFilePathGo h n (dir dirPath)

/-- `getFilePathForDir`, internal/settings/config_provider.go:120-134. More iterations
than the path has characters are never needed for an absolute path
(`getFilePathGo_enough`). -/
def getFilePathForDir (h : Host) (dirPath : Str) : Option (Except Err Str) :=
  getFilePathGo h (dirPath.length + 1) dirPath

/-- The error of a path that is not absolute. -/
def notAbsolute (p : Str) : Err := p ++ s%" is not an absolute path"

/-- `configProvider.GetFilePathForDir`, internal/settings/config_provider.go:65-70. -/
def getFilePathForDirOf (h : Host) (dirPath : Str) : Option (Except Err Str) :=
  if !isAbs dirPath then some (.error (notAbsolute dirPath))
  else getFilePathForDir h (clean dirPath)

/-! ## config_provider.go: conversion -/

/-- A configured path made absolute and clean, as done for excludes
internal/settings/config_provider.go:412-415, includes :207-210 and ignores :217-220. -/
def resolve (dirPath p : Str) : Str :=
  clean (if !isAbs p then joinPath [dirPath, p] else p)

/-- The loop of `getExcludePrefixes`, internal/settings/config_provider.go:411-424. -/
def excludeLoop (dirPath : Str) : List Str → Except Err (List Str)
  | [] => .ok []
  | x :: xs =>
    let excludePrefix := resolve dirPath x
    if excludePrefix = dirPath then
      .error (s%"cannot exclude directory of config file: " ++ dirPath)
    else if !hasPrefix excludePrefix dirPath then
      .error (s%"cannot exclude directory outside of config file directory " ++ dirPath ++ s%": " ++ excludePrefix)
    else
      match excludeLoop dirPath xs with
      | .error e => .error e
      | .ok rest => .ok (excludePrefix :: rest)

/-- `getExcludePrefixes`, internal/settings/config_provider.go:409-425. -/
def getExcludePrefixes (excludes : List Str) (dirPath : Str) : Except Err (List Str) :=
  excludeLoop dirPath (Strs.sortUniq excludes)

/-- The include paths, internal/settings/config_provider.go:205-212. -/
def includePathsOf (includes : List Str) (dirPath : Str) : List Str :=
  (Strs.sortUniq includes).map (resolve dirPath)

/-- `ignoreIDToFilePaths[id] = append(ignoreIDToFilePaths[id], p)`,
internal/settings/config_provider.go:221-224. -/
def addIgnore (m : GoMap Str (List Str)) (id p : Str) : GoMap Str (List Str) :=
  m.set id ((m.get? id).getD [] ++ [p])

/-- The ignores, internal/settings/config_provider.go:213-226. -/
def ignoresOf (ignores : List (Str × List Str)) (dirPath : Str) : GoMap Str (List Str) :=
  ignores.foldl (fun m ignore =>
    ignore.2.foldl (fun m p => addIgnore m (toUpper ignore.1) (resolve dirPath p)) m) []

/-- The output path of a plugin, internal/settings/config_provider.go:237-247. The text of
the error, which an absolute `dirPath` does not give, lacks the reason at its end. -/
def outputPathOf (dirPath : Str) (plugin : ExternalPlugin) : Except Err OutputPath :=
  if isAbs plugin.output then
    match rel dirPath (clean plugin.output) with
    | none =>
      .error (s%"failed to resolve plugin " ++ quote plugin.name ++ s%" output absolute path " ++
        quote (clean plugin.output) ++ s%" to a relative path with base " ++ quote dirPath)
    | some relPath => .ok ⟨relPath, clean plugin.output⟩
  else .ok ⟨plugin.output, clean (joinPath [dirPath, plugin.output])⟩

/-- The checks of a plugin after its output path, internal/settings/config_provider.go:248-258. -/
def checkPlugin (plugin : ExternalPlugin) : Except Err Unit :=
  if plugin.fileSuffix.head? = some '.' then
    .error (s%"file_suffix begins with '.' but should not include the '.': " ++ plugin.fileSuffix)
  else if plugin.name ≠ s%"descriptor_set" then
    if plugin.includeImports then
      .error (s%"include_imports is only valid for the descriptor_set plugin but set on " ++ quote plugin.name)
    else if plugin.includeSourceInfo then
      .error (s%"include_source_info is only valid for the descriptor_set plugin but set on " ++ quote plugin.name)
    else .ok ()
  else .ok ()

/-- One plugin, internal/settings/config_provider.go:229-272. -/
def genPluginOf (dirPath : Str) (plugin : ExternalPlugin) : Except Err GenPlugin :=
  match parseGenPluginType plugin.type with
  | .error e => .error e
  | .ok type =>
    if plugin.output = [] then .error (s%"output path required for plugin " ++ plugin.name)
    else
      match outputPathOf dirPath plugin with
      | .error e => .error e
      | .ok outputPath =>
        match checkPlugin plugin with
        | .error e => .error e
        | .ok () =>
          .ok ⟨plugin.name, plugin.path, type, plugin.flags, outputPath, plugin.fileSuffix,
            plugin.includeImports, plugin.includeSourceInfo⟩

/-- The plugin loop, internal/settings/config_provider.go:228-272. -/
def genPluginsOf (dirPath : Str) : List ExternalPlugin → Except Err (List GenPlugin)
  | [] => .ok []
  | p :: ps =>
    match genPluginOf dirPath p with
    | .error e => .error e
    | .ok x =>
      match genPluginsOf dirPath ps with
      | .error e => .error e
      | .ok xs => .ok (x :: xs)

/-- The create packages, internal/settings/config_provider.go:275-293. -/
def createPackagesOf (dirPath : Str) : List (Str × Str) → GoMap Str Str → Except Err (GoMap Str Str)
  | [], m => .ok m
  | (relDirPath, basePackage) :: rest, m =>
    if relDirPath = [] then .error (s%"directory for create package is empty")
    else if basePackage = [] then .error (s%"name for create package is empty")
    else if isAbs relDirPath then
      .error (s%"directory for create package must be relative: " ++ relDirPath)
    else createPackagesOf dirPath rest (m.set (clean (joinPath [dirPath, relDirPath])) basePackage)

/-- `getFileHeaderLines`, internal/settings/config_provider.go:436-442. -/
def getFileHeaderLines (content : Str) : List Str :=
  (splitChar '\n' (trimSpace content)).map trimSpace

/-- One line of a header that is not commented, internal/settings/config_provider.go:315-321. -/
def commentLine (line : Str) : Str := if line = [] then s%"//" else s%"// " ++ line

/-- The content of the header file or the configured content,
internal/settings/config_provider.go:300-312. -/
def fileHeaderContentOf (h : Host) (e : ExternalConfig) (dirPath : Str) : Except Err Str :=
  if e.fileHeaderPath ≠ [] then
    if isAbs e.fileHeaderPath then
      .error (s%"path for file header must be relative: " ++ e.fileHeaderPath)
    else h.readFile (joinPath [dirPath, e.fileHeaderPath])
  else .ok e.fileHeaderContent

/-- The file header, internal/settings/config_provider.go:295-327. -/
def fileHeaderOf (h : Host) (e : ExternalConfig) (dirPath : Str) : Except Err Str :=
  if e.fileHeaderPath ≠ [] ∨ e.fileHeaderContent ≠ [] then
    if e.fileHeaderPath ≠ [] ∧ e.fileHeaderContent ≠ [] then
      .error (s%"must only specify either file header path or content")
    else
      match fileHeaderContentOf h e dirPath with
      | .error err => .error err
      | .ok content =>
        let lines := getFileHeaderLines content
        let lines := if !e.fileHeaderIsCommented then lines.map commentLine else lines
        let fileHeader := join s%"\n" lines
        if fileHeader = [] then
          .error (s%"file header path or content specified but result was empty file header")
        else .ok fileHeader
  else .ok []

/-- The checks of the converted plugins, internal/settings/config_provider.go:370-386.
Every `GenPluginType` of the model is a known one. -/
def checkGenPlugins (importPath : Str) : List GenPlugin → Except Err Unit
  | [] => .ok ()
  | p :: ps =>
    if hasPrefix p.name s%"protoc-gen-" then
      .error (s%"plugin name provided was " ++ p.name ++ s%", do not include the protoc-gen- prefix")
    else if (p.type.isGo || p.type.isGogo) && importPath = [] then
      .error (s%"go plugin " ++ p.name ++ s%" specified but no import path provided")
    else checkGenPlugins importPath ps

/-- The `Config` built from the parts, internal/settings/config_provider.go:335-368. -/
def buildConfig (e : ExternalConfig) (dirPath : Str) (excludePrefixes : List Str)
    (plugins : List GenPlugin) (packages : GoMap Str Str) (fileHeader : Str) : Config :=
  { dirPath := dirPath
    excludePrefixes := excludePrefixes
    compile := ⟨e.version, includePathsOf e.includes dirPath, true, e.allowUnusedImports⟩
    dirPathToBasePackage := packages
    lint :=
      { group := toLower e.lintGroup
        noDefault := e.noDefault
        includeIDs := Strs.sortUniqModify e.add (some toUpper)
        excludeIDs := Strs.sortUniqModify e.remove (some toUpper)
        ignoreIDToFilePaths := ignoresOf e.ignores dirPath
        fileHeader := fileHeader
        javaPackagePrefix := e.javaPackagePrefix
        allowSuppression := e.allowSuppression }
    break_ := ⟨e.includeBeta, e.allowBetaDeps⟩
    gen := ⟨e.importPath, e.extraModifiers, plugins⟩ }

/-- The end of `externalConfigToConfig`: the suppression check
internal/settings/config_provider.go:329-333 and everything from :335. -/
def finishConfig (develMode : Bool) (e : ExternalConfig) (dirPath : Str) (excludePrefixes : List Str)
    (plugins : List GenPlugin) (packages : GoMap Str Str) (fileHeader : Str) : Except Err Config :=
  if !develMode && e.allowSuppression then
    .error (s%"allow_suppression is not allowed outside of internal prototool tests")
  else
    let config := buildConfig e dirPath excludePrefixes plugins packages fileHeader
    match checkGenPlugins e.importPath config.gen.plugins with
    | .error err => .error err
    | .ok () =>
      if (Strs.intersection config.lint.includeIDs config.lint.excludeIDs).length > 0 then
        .error (s%"config had intersection of " ++
          listText (Strs.intersection config.lint.includeIDs config.lint.excludeIDs) ++
          s%" between lint_include and lint_exclude")
      else .ok config

/-- `externalConfigToConfig`, internal/settings/config_provider.go:200-392. -/
def externalConfigToConfig (s : SortSlice) (h : Host) (develMode : Bool) (e : ExternalConfig)
    (dirPath : Str) : Except Err Config :=
  match getExcludePrefixes e.excludes dirPath with
  | .error err => .error err
  | .ok excludePrefixes =>
    match genPluginsOf dirPath e.plugins with
    | .error err => .error err
    | .ok plugins =>
      let plugins := s.run (fun a b => Str.lt a.name b.name) plugins
      match createPackagesOf dirPath e.createPackages [] with
      | .error err => .error err
      | .ok packages =>
        match fileHeaderOf h e dirPath with
        | .error err => .error err
        | .ok fileHeader => finishConfig develMode e dirPath excludePrefixes plugins packages fileHeader

/-- `getExternalConfig`, internal/settings/config_provider.go:172-195. -/
def getExternalConfig (h : Host) (filePath : Str) : Except Err ExternalConfig :=
  match h.readFile filePath with
  | .error e => .error e
  | .ok data =>
    if data = [] then .ok {}
    else if ext filePath = s%".json" then jsonUnmarshalStrict data
    else if ext filePath = s%".yaml" then h.parseYAML data
    else .error (s%"unknown config file extension, must be .json or .yaml: " ++ filePath)

/-- `configProvider.Get` with `get`, internal/settings/config_provider.go:72-78 and :160-166. -/
def getConfig (s : SortSlice) (h : Host) (develMode : Bool) (filePath : Str) : Except Err Config :=
  if !isAbs filePath then .error (notAbsolute filePath)
  else
    match getExternalConfig h (clean filePath) with
    | .error e => .error e
    | .ok e => externalConfigToConfig s h develMode e (dir (clean filePath))

/-- `configProvider.GetForDir`, internal/settings/config_provider.go:54-63; `none` is
non-termination. -/
def getForDir (s : SortSlice) (h : Host) (develMode : Bool) (dirPath : Str) :
    Option (Except Err Config) :=
  match getFilePathForDirOf h dirPath with
  | none => none
  | some (.error e) => some (.error e)
  | some (.ok filePath) =>
    if filePath = [] then some (externalConfigToConfig s h develMode {} dirPath)
    else some (getConfig s h develMode filePath)

/-- `configProvider.GetForData`, internal/settings/config_provider.go:80-90. -/
def getForData (s : SortSlice) (h : Host) (develMode : Bool) (dirPath data : Str) : Except Err Config :=
  if !isAbs dirPath then .error (notAbsolute dirPath)
  else
    match jsonUnmarshalStrict data with
    | .error e => .error e
    | .ok e => externalConfigToConfig s h develMode e (clean dirPath)

/-- `configProvider.GetExcludePrefixesForDir` with `getExcludePrefixesForDir`,
internal/settings/config_provider.go:92-98 and :394-407. -/
def getExcludePrefixesForDir (h : Host) (dirPath : Str) : Except Err (List Str) :=
  if !isAbs dirPath then .error (notAbsolute dirPath)
  else
    match getSingleFilePathForDir h (clean dirPath) with
    | .error e => .error e
    | .ok filePath =>
      if filePath = [] then .ok []
      else
        match getExternalConfig h filePath with
        | .error e => .error e
        | .ok e => getExcludePrefixes e.excludes (clean dirPath)

/-- `configProvider.GetExcludePrefixesForData`, internal/settings/config_provider.go:100-110. -/
def getExcludePrefixesForData (h : Host) (dirPath data : Str) : Except Err (List Str) :=
  if !isAbs dirPath then .error (notAbsolute dirPath)
  else
    match jsonUnmarshalStrict data with
    | .error e => .error e
    | .ok e => getExcludePrefixes e.excludes (clean dirPath)

end Verif.Settings
