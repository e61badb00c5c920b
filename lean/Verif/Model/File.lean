import Verif.Model.Settings

/-!
# Model of internal/file

The file system below a directory is a tree. `filepath.Walk` is modelled as the
traversal it documents: parents before children, children in the listed order.
-/

namespace Verif.File

open Verif Str Path Settings

/-! ## file.go -/

/-- `ProtoFile`, internal/file/file.go:62-71. -/
structure ProtoFile where
  path : Str
  displayPath : Str
deriving DecidableEq

/-- `ProtoSet`, internal/file/file.go:37-59. -/
structure ProtoSet where
  workDirPath : Str
  dirPath : Str
  dirPathToFiles : GoMap Str (List ProtoFile)
  config : Config

/-- `AbsClean`, internal/file/file.go:134-142; `wd` is the process working directory
that `filepath.Abs` uses. -/
def absClean (wd path : Str) : Str :=
  if path = [] then path
  else if !isAbs path then joinPath [wd, path]
  else clean path

/-- The inner loop of `IsExcluded`, internal/file/file.go:159-163. The first argument
bounds the number of iterations; `none` is a loop that did not end. -/
def excludedBy (absConfigDirPath absExcludePath : Str) : Nat → Str → Option Bool
  | 0, _ => none
  | n + 1, curFilePath =>
    if curFilePath ≠ absConfigDirPath ∧ curFilePath ≠ s%"/" then
      if curFilePath = absExcludePath then some true
      else excludedBy absConfigDirPath absExcludePath n (dir curFilePath)
    else some false

/-- `IsExcluded`, internal/file/file.go:157-167, with at most `n` iterations of every
inner loop. -/
def isExcludedGo (n : Nat) (absFilePath absConfigDirPath : Str) : List Str → Option Bool
  | [] => some false
  | e :: es =>
    match excludedBy absConfigDirPath e n absFilePath with
    | none => none
    | some true => some true
    | some false => isExcludedGo n absFilePath absConfigDirPath es

/-- `IsExcluded`, internal/file/file.go:157-167. More iterations than the path has
characters are never needed for an absolute path (`isExcluded_terminates`); for a
relative path the Go loop does not end (`C20_relative_diverges`). -/
def isExcluded (absFilePath absConfigDirPath : Str) (absExcludePaths : List Str) : Option Bool :=
  isExcludedGo (absFilePath.length + 1) absFilePath absConfigDirPath absExcludePaths

/-! ## The directory walk -/

/-- A file system entry as seen by `Lstat` and `readDirNames`: anything that is not a
directory, a directory with its entries in the order of the walk, a directory that
cannot be listed, or an entry whose `Lstat` fails. -/
inductive Node where
  | file
  | dir (entries : List (Str × Node))
  | unreadable (e : Err)
  | broken (e : Err)

/-- What `walkAndGetAllProtoFiles` uses besides its arguments: whether configuration
data was given on the command line, the provider of excludes for a directory, and
the two paths. -/
structure WalkConfig where
  hasConfigData : Bool
  excludesForDir : Str → Except Err (List Str)
  absWorkDirPath : Str
  absDirPath : Str

/-- The variables captured by the callback, internal/file/proto_set_provider.go:214-217. -/
structure WalkState where
  excludes : List Str
  protoFiles : List ProtoFile

/-- What the callback returns: `nil`, `filepath.SkipDir` or another error. -/
inductive Visit where
  | next (st : WalkState)
  | skipDir (st : WalkState)
  | fail (e : Err)

/-- Branches on the result of `IsExcluded`; a loop that does not end is an error here. -/
def onExcluded (r : Option Bool) (yes no : Visit) : Visit :=
  match r with
  | none => .fail (s%"does not terminate")
  | some true => yes
  | some false => no

/-- The callback on a directory, internal/file/proto_set_provider.go:245-259. -/
def visitDir (c : WalkConfig) (filePath : Str) (st : WalkState) : Visit :=
  if c.hasConfigData then
    onExcluded (isExcluded filePath c.absDirPath st.excludes) (.skipDir st) (.next st)
  else
    match c.excludesForDir filePath with
    | .error e => .fail e
    | .ok iExcludes =>
      let st := { st with excludes := st.excludes ++ iExcludes }
      onExcluded (isExcluded filePath c.absDirPath st.excludes) (.skipDir st) (.next st)

/-- The display path, internal/file/proto_set_provider.go:268-272. -/
def displayPathOf (absWorkDirPath filePath : Str) : Str :=
  clean ((rel absWorkDirPath filePath).getD filePath)

/-- The callback on anything else, internal/file/proto_set_provider.go:260-277. -/
def visitFile (c : WalkConfig) (filePath : Str) (st : WalkState) : Visit :=
  if ext filePath ≠ s%".proto" then .next st
  else
    onExcluded (isExcluded filePath c.absDirPath st.excludes) (.next st)
      (.next { st with protoFiles :=
        st.protoFiles ++ [⟨filePath, displayPathOf c.absWorkDirPath filePath⟩] })

mutual
/-- `filepath.walk` with the callback of internal/file/proto_set_provider.go:234-278 that
is never timed out. -/
def walk (c : WalkConfig) : Node → Str → WalkState → Except Err WalkState
  | .file, p, st =>
    match visitFile c p st with
    | .next st => .ok st
    | .skipDir st => .ok st
    | .fail e => .error e
  | .dir entries, p, st =>
    match visitDir c p st with
    | .next st => walkEntries c entries p st
    | .skipDir st => .ok st
    | .fail e => .error e
  | .unreadable e, _, _ => .error e
  | .broken e, _, _ => .error e

/-- The loop of `filepath.walk` over the names of a directory. -/
def walkEntries (c : WalkConfig) : List (Str × Node) → Str → WalkState → Except Err WalkState
  | [], _, st => .ok st
  | (name, node) :: rest, p, st =>
    match walk c node (joinPath [p, name]) st with
    | .error e => .error e
    | .ok st => walkEntries c rest p st
end

/-- `walkAndGetAllProtoFiles` with no timeout configured,
internal/file/proto_set_provider.go:213-286. `dataExcludes` are the excludes of the
configuration data. -/
def walkAll (c : WalkConfig) (root : Node) (dataExcludes : List Str) : Except Err (List ProtoFile) :=
  match walk c root c.absDirPath ⟨dataExcludes, []⟩ with
  | .error e => .error e
  | .ok st => .ok st.protoFiles

/-! ## proto_set_provider.go -/

/-- `getDirPathToProtoFiles`, internal/file/proto_set_provider.go:330-337. -/
def getDirPathToProtoFiles (protoFiles : List ProtoFile) : GoMap Str (List ProtoFile) :=
  protoFiles.foldl (fun m f => m.set (dir f.path) ((m.get? (dir f.path)).getD [] ++ [f])) []

/-- `validateIsRel`, internal/file/proto_set_provider.go:316-328. -/
def validateIsRel (base dir_ : Str) : Except Err Unit :=
  match rel base dir_ with
  | none => .error (s%"could not make relative, this is a system error")
  | some r =>
    if r = [] then .error (s%"could not make relative, this is a system error")
    else if hasPrefix r s%".." then .error (s%"could not make within, this is a system error")
    else .ok ()

/-- The inner loop of `validateProtoSet`, internal/file/proto_set_provider.go:304-311. -/
def validateFiles (configDirPath dirPath : Str) : List ProtoFile → Except Err Unit
  | [] => .ok ()
  | f :: fs =>
    if dir f.path ≠ dirPath then .error (f.path ++ s%" does not reside within " ++ dirPath)
    else
      match validateIsRel configDirPath f.path with
      | .error e => .error e
      | .ok () => validateFiles configDirPath dirPath fs

/-- The outer loop of `validateProtoSet`, internal/file/proto_set_provider.go:302-314, over
the map entries in the visited order. -/
def validateDirs (configDirPath : Str) : List (Str × List ProtoFile) → Except Err Unit
  | [] => .ok ()
  | (d, fs) :: rest =>
    match validateFiles configDirPath d fs with
    | .error e => .error e
    | .ok () => validateDirs configDirPath rest

/-- The provider's settings and what it asks the system: `tree` is what `Lstat` and
listing find at a path, `wd` the working directory of the process, `configData` the
`--config-data` flag (empty if not given). -/
structure Provider where
  host : Host
  sort : SortSlice
  develMode : Bool
  configData : Str
  wd : Str
  tree : Str → Node

/-- The configuration for a directory of files, internal/file/proto_set_provider.go:139-174:
the configuration file (empty if none) and the configuration. -/
def configFor (c : Provider) (absWorkDirPath dirPath : Str) : Except Err (Str × Config) :=
  if c.configData = [] then
    match getFilePathForDirOf c.host dirPath with
    | none => .error (s%"does not terminate")
    | some (.error e) => .error e
    | some (.ok configFilePath) =>
      if configFilePath ≠ [] then
        match getConfig c.sort c.host c.develMode configFilePath with
        | .error e => .error e
        | .ok config => .ok (configFilePath, config)
      else
        match getForDir c.sort c.host c.develMode absWorkDirPath with
        | none => .error (s%"does not terminate")
        | some (.error e) => .error e
        | some (.ok config) => .ok ([], config)
  else
    match getForData c.sort c.host c.develMode absWorkDirPath c.configData with
    | .error e => .error e
    | .ok config => .ok ([], config)

/-- A base set: the files and the configuration. -/
abbrev BaseSet := GoMap Str (List ProtoFile) × Config

/-- The main loop of `getBaseProtoSets`, internal/file/proto_set_provider.go:137-177, over the
directories in the visited order; the map is from configuration file to set. -/
def baseLoop (c : Provider) (absWorkDirPath : Str) :
    List (Str × List ProtoFile) → GoMap Str BaseSet → Except Err (GoMap Str BaseSet)
  | [], m => .ok m
  | (dirPath, protoFiles) :: rest, m =>
    match configFor c absWorkDirPath dirPath with
    | .error e => .error e
    | .ok (configFilePath, config) =>
      let files : GoMap Str (List ProtoFile) := ((m.get? configFilePath).map (·.1)).getD []
      let files := GoMap.set files dirPath ((GoMap.get? files dirPath).getD [] ++ protoFiles)
      baseLoop c absWorkDirPath rest (m.set configFilePath (files, config))

/-- `getDefaultBaseProtoSet` with `getConfig`, internal/file/proto_set_provider.go:189-206. -/
def defaultBaseSet (c : Provider) (absWorkDirPath : Str) : Except Err BaseSet :=
  if c.configData = [] then
    match getForDir c.sort c.host c.develMode absWorkDirPath with
    | none => .error (s%"does not terminate")
    | some (.error e) => .error e
    | some (.ok config) => .ok ([], config)
  else
    match getForData c.sort c.host c.develMode absWorkDirPath c.configData with
    | .error e => .error e
    | .ok config => .ok ([], config)

/-- `getBaseProtoSets`, internal/file/proto_set_provider.go:129-186. -/
def getBaseProtoSets (c : Provider) (o : Order) (absWorkDirPath : Str)
    (m : GoMap Str (List ProtoFile)) : Except Err (List BaseSet) :=
  if m.length = 0 then
    match defaultBaseSet c absWorkDirPath with
    | .error e => .error e
    | .ok b => .ok [b]
  else
    match baseLoop c absWorkDirPath (o.ord [s%"dirs"] m) [] with
    | .error e => .error e
    | .ok sets =>
      .ok (c.sort.run (fun a b => Str.lt a.2.dirPath b.2.dirPath) (o.ord [s%"sets"] (sets.map (·.2))))

/-- The validation loop, internal/file/proto_set_provider.go:120-124. -/
def validateSets (o : Order) : List BaseSet → Except Err Unit
  | [] => .ok ()
  | b :: bs =>
    match validateDirs b.2.dirPath (o.ord [s%"validate", b.2.dirPath] b.1) with
    | .error e => .error e
    | .ok () => validateSets o bs

/-- The directory that is walked, internal/file/proto_set_provider.go:91-106. -/
def walkRoot (c : Provider) (workDirPath absDirPath : Str) : Except Err Str :=
  if c.configData = [] then
    match getFilePathForDirOf c.host absDirPath with
    | none => .error (s%"does not terminate")
    | some (.error e) => .error e
    | some (.ok configFilePath) =>
      .ok (if configFilePath ≠ [] then dir configFilePath else absDirPath)
  else .ok workDirPath

/-- The excludes known before the walk, internal/file/proto_set_provider.go:219-226. -/
def dataExcludes (c : Provider) (absWorkDirPath : Str) : Except Err (List Str) :=
  if c.configData ≠ [] then getExcludePrefixesForData c.host absWorkDirPath c.configData
  else .ok []

/-- The settings of the walk. -/
def walkConfig (c : Provider) (absWorkDirPath absDirPath : Str) : WalkConfig :=
  ⟨decide (c.configData ≠ []), getExcludePrefixesForDir c.host, absWorkDirPath, absDirPath⟩

/-- `walkAndGetAllProtoFiles` with no timeout configured. -/
def walkAndGetAllProtoFiles (c : Provider) (absWorkDirPath absDirPath : Str) :
    Except Err (List ProtoFile) :=
  match dataExcludes c absWorkDirPath with
  | .error e => .error e
  | .ok excludes => walkAll (walkConfig c absWorkDirPath absDirPath) (c.tree absDirPath) excludes

/-- `getMultipleForDir`, internal/file/proto_set_provider.go:82-127. -/
def getMultipleForDir (c : Provider) (o : Order) (workDirPath dirPath : Str) :
    Except Err (List ProtoSet) :=
  let workDirPath := absClean c.wd workDirPath
  let absDirPath := absClean c.wd dirPath
  match walkRoot c workDirPath absDirPath with
  | .error e => .error e
  | .ok configDirPath =>
    match walkAndGetAllProtoFiles c workDirPath configDirPath with
    | .error e => .error e
    | .ok protoFiles =>
      match getBaseProtoSets c o workDirPath (getDirPathToProtoFiles protoFiles) with
      | .error e => .error e
      | .ok sets =>
        match validateSets o sets with
        | .error e => .error e
        | .ok () => .ok (sets.map fun b => ⟨workDirPath, absDirPath, b.1, b.2⟩)

/-- `protoSetProvider.GetForDir`, internal/file/proto_set_provider.go:63-80. -/
def getForDirOf (c : Provider) (o : Order) (workDirPath dirPath : Str) : Except Err ProtoSet :=
  match getMultipleForDir c o workDirPath dirPath with
  | .error e => .error e
  | .ok [] => .error (s%"no ProtoSet returned, this is a system error")
  | .ok [protoSet] => .ok protoSet
  | .ok _ => .error (s%"expected exactly one configuration file")

end Verif.File
