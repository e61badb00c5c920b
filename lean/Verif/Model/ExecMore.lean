import Verif.Model.Exec

/-!
# Model of internal/exec: descriptor-set, break check, the inspections and init

More code outside internal/exec (`Tools`): encoding descriptor sets, opening and closing files,
temporary files and directories, and git.
-/

namespace Verif.Exec

open Verif Str Descriptor

/-- The code outside this module:

* `srt`, `order`: `sort.Slice` and map iteration;
* `marshal`: `proto.Marshal` of a file, `sum`: the same followed by SHA-256;
* `encodeJSON`, `encodeProto`, `decode`: descriptor sets to bytes and back;
* `create`, `tempFile`, `writeTo`, `close`: `os.Create`, `ioutil.TempFile`, and `Write` (with what
  it leaves in the file on an error) and `Close` of a file;
* `tempDir`: `ioutil.TempDir`;
* `git`: running git with the given arguments: the files after, and the combined output if it
  ended with an error;
* `treeStat`, `treeForDir`: `os.Stat` and `GetForDir` while the clone exists;
* `removeAll`: `os.RemoveAll`;
* `mkdirAll`: `os.MkdirAll`; `config`: `cfginit.Generate`. -/
structure Tools where
  srt : SortSlice
  order : Order
  marshal : FileDesc → Except Err Str
  sum : FileDesc → Except Err Str
  encodeJSON : FileSet → Except Err Str
  encodeProto : FileSet → Except Err Str
  decode : Str → Except Err FileSet
  create : Str → Except Err Unit
  tempFile : Except Err Str
  writeTo : (path data : Str) → Except (Err × Str) Unit
  close : Str → Option Err
  tempDir : Except Err Str
  git : List Str → Disk → Disk × Option Str
  treeStat : Str → Except Err Kind
  treeForDir : (workDirPath dirPath : Str) → Except Err File.ProtoSet
  removeAll : Str → Disk → Disk
  mkdirAll : Str → Except Err Unit
  config : (uncomment document : Bool) → Except Err Str

/-! ## descriptor-set -/

/-- `file.Write`, internal/exec/runner.go:728-730. -/
def writeTo (t : Tools) (path data : Str) : Run Unit := fun w =>
  let w := { w with writes := w.writes ++ [(path, data)] }
  match t.writeTo path data with
  | .ok () => ({ w with disk := Disk.set w.disk path (some data) }, .ok ())
  | .error (e, left) => ({ w with disk := Disk.set w.disk path (some left) }, .error (.other e))

/-- Opening the output, internal/exec/runner.go:716-724: the file is there and empty. -/
def openOutput (t : Tools) (outputPath : Str) : Run Str := fun w =>
  let opened : Except Err Str :=
    if outputPath ≠ [] then
      match t.create outputPath with
      | .error e => .error e
      | .ok () => .ok outputPath
    else t.tempFile
  match opened with
  | .error e => (w, .error (.other e))
  | .ok path => ({ w with disk := Disk.set w.disk path (some []) }, .ok path)

/-- The text of an error. -/
def RunErr.text : RunErr → Str
  | .exit _ m => m
  | .other e => e

/-- The deferred `multierr.Append(retErr, file.Close())`, internal/exec/runner.go:725-727. -/
def closing (t : Tools) (path : Str) (r : Run Unit) : Run Unit := fun w =>
  match r w, t.close path with
  | (w, .ok ()), some e => (w, .error (.other e))
  | (w, .error e), some e' => (w, .error (.other (e.text ++ s%"; " ++ e')))
  | x, _ => x

/-- `DescriptorSet`, internal/exec/runner.go:684-737. -/
def descriptorSetCmd (h : Host) (t : Tools) (args : List Str) (includeImports includeSourceInfo : Bool)
    (outputPath : Str) (tmp : Bool) : Run Unit :=
  if outputPath ≠ [] ∧ tmp then exit255 s%"can only set one of output-path, tmp"
  else
    Run.bind (getMeta h args) fun m =>
    Run.bind (doCompile h
      { fullControl := true, includeImports := includeImports, includeSourceInfo := includeSourceInfo } m)
      fun sets =>
    Run.bind (Run.lift (Desc.mergeFileDescriptorSets t.srt t.sum
      (sets.map fun s => some (s.map some)))) fun set =>
    Run.bind (Run.lift (if h.json then t.encodeJSON set else t.encodeProto set)) fun data =>
    if outputPath = [] ∧ !tmp then write h data
    else
      Run.bind (openOutput t outputPath) fun path =>
      closing t path
        (Run.bind (writeTo t path data) fun _ =>
          if tmp then println h path else Run.pure ())

/-- `BreakDescriptorSet`, internal/exec/runner.go:677-682. -/
def breakDescriptorSetCmd (h : Host) (t : Tools) (args : List Str) (outputPath : Str) : Run Unit :=
  if outputPath = [] then exit255 s%"must set output-path"
  else descriptorSetCmd h t args true false outputPath false

/-! ## inspect -/

/-- `getPackageSetAndConfig`, internal/exec/runner.go:833-852. -/
def getPackageSetAndConfig (h : Host) (t : Tools) (site : Str) (args : List Str) :
    Run (Extract.XPackageSet × Settings.Config) :=
  Run.bind (getMeta h args) fun m =>
  Run.bind (compile h false true false m) fun sets =>
  Run.bind (Run.lift (Breaking.packageSetOf t.srt (t.order.sub site) t.marshal sets)) fun ps =>
  Run.pure (ps, m.protoSet.config)

/-- `extractSortPackageNames`, internal/exec/runner.go:1271-1280. -/
def extractSortPackageNames (o : Order) (names : List Str) : List Str :=
  sortStrs ((o.ord [s%"extractSortPackageNames"] names).filter fun n => n ≠ [])

/-- `printPackageNames`, internal/exec/runner.go:892-899. -/
def printPackageNames (h : Host) (t : Tools) (names : List Str) : Run Unit :=
  printAll h (extractSortPackageNames t.order names)

/-- `InspectPackages`, internal/exec/runner.go:739-748. The package set is never nil. -/
def inspectPackagesCmd (h : Host) (t : Tools) (args : List Str) : Run Unit :=
  Run.bind (getPackageSetAndConfig h t s%"to" args) fun r =>
  printPackageNames h t (r.1.packages.map fun p => p.proto.name)

/-- `getPackage`, internal/exec/runner.go:874-890. -/
def getPackage (h : Host) (t : Tools) (args : List Str) (name : Str) : Run Extract.XPackage :=
  if name = [] then exit255 s%"must set name"
  else
    Run.bind (getPackageSetAndConfig h t s%"to" args) fun r =>
    match r.1.packages.find? fun p => p.proto.name = name with
    | none => Run.fail (.other (s%"package not found: " ++ name))
    | some p => Run.pure p

/-- `InspectPackageDeps`, internal/exec/runner.go:750-756. -/
def inspectPackageDepsCmd (h : Host) (t : Tools) (args : List Str) (name : Str) : Run Unit :=
  Run.bind (getPackage h t args name) fun p => printPackageNames h t p.dependencies

/-- `InspectPackageImporters`, internal/exec/runner.go:758-764. -/
def inspectPackageImportersCmd (h : Host) (t : Tools) (args : List Str) (name : Str) : Run Unit :=
  Run.bind (getPackage h t args name) fun p => printPackageNames h t p.importers

/-! ## break check -/

/-- `getPackageSetForDescriptorSetPath`, internal/exec/runner.go:854-864. -/
def getPackageSetForDescriptorSetPath (h : Host) (t : Tools) (path : Str) : Run Extract.XPackageSet :=
  Run.bind (readFile h path) fun data =>
  Run.bind (Run.lift (t.decode data)) fun set =>
  Run.lift (Breaking.packageSetOf t.srt (t.order.sub s%"from") t.marshal [set])

/-- The checks of the argument in `BreakCheck`, internal/exec/runner.go:783-802. -/
def checkRelDirPath (h : Host) (relDirPath : Str) : Except Err Unit :=
  if Path.isAbs relDirPath then
    .error (s%"input argument must be relative directory path: " ++ relDirPath)
  else if !hasPrefix (File.absClean h.wd relDirPath) (File.absClean h.wd h.workDirPath) then
    .error (s%"input directory must be within working directory: " ++ relDirPath)
  else .ok ()

/-- The arguments of git in `TemporaryClone`, internal/git/git.go:57-61. -/
def gitArgs (absDirPath branchOrTag cloneDirPath : Str) : List Str :=
  [s%"clone", s%"--depth", s%"1"] ++ (if branchOrTag ≠ [] then [s%"--branch", branchOrTag] else []) ++
    [s%"file://" ++ absDirPath, cloneDirPath]

/-- `TemporaryClone`, internal/git/git.go:41-68. On the disk the new directory shows as a path
with no content. -/
def temporaryClone (h : Host) (t : Tools) (branchOrTag : Str) : Run Str := fun w =>
  let absDirPath := File.absClean h.wd h.workDirPath
  match h.stat (Path.joinPath [absDirPath, s%".git"]) with
  | .error e => (w, .error (.other e))
  | .ok .dir =>
    match t.tempDir with
    | .error e => (w, .error (.other e))
    | .ok cloneDirPath =>
      let args := gitArgs absDirPath branchOrTag cloneDirPath
      match t.git args (Disk.set w.disk cloneDirPath (some [])) with
      | (disk, none) => ({ w with disk := disk }, .ok cloneDirPath)
      | (disk, some output) => ({ w with disk := disk }, .error (.other
          (s%"git " ++ join s%" " args ++ s%" had error: " ++ output)))
  | .ok _ => (w, .error (.other (quote absDirPath ++ s%" does not contain a .git directory")))

/-- The deferred `os.RemoveAll(cloneDirPath)`, internal/exec/runner.go:809-812. -/
def removing {α : Type} (t : Tools) (dir : Str) (r : Run α) : Run α := fun w =>
  match r w with
  | (w, x) => ({ w with disk := t.removeAll dir w.disk }, x)

/-- `cloneForWorkDirPath`, internal/exec/runner.go:114-129. -/
def cloneForWorkDirPath (h : Host) (t : Tools) (dir : Str) : Host :=
  { h with workDirPath := dir, stat := t.treeStat, getForDir := t.treeForDir }

/-- `dirPath` of `getPackageSetAndConfigForRelDirPath`, internal/exec/runner.go:903-909. -/
def cloneDirFor (workDirPath relDirPath : Str) : Str :=
  if relDirPath ≠ [] ∧ relDirPath ≠ s%"." then Path.joinPath [workDirPath, relDirPath]
  else workDirPath

/-- The end of `BreakCheck`, internal/exec/runner.go:820-830. -/
def breakReport (h : Host) (t : Tools) (config : Settings.Config) (frm to : Extract.XPackageSet) :
    Run Unit :=
  Run.bind (Run.lift (Breaking.run t.order config.break_ frm to)) fun failures =>
  if failures.length > 0 then
    Run.bind (printFailuresFor h s%"message" [] none failures) fun _ => exit255
  else Run.pure ()

/-- `BreakCheck`, internal/exec/runner.go:766-831. -/
def breakCheckCmd (h : Host) (t : Tools) (args : List Str) (gitBranch descriptorSetPath : Str) :
    Run Unit :=
  if gitBranch ≠ [] ∧ descriptorSetPath ≠ [] then
    exit255 s%"can only set one of git-branch, descriptor-set-path"
  else
    Run.bind (getPackageSetAndConfig h t s%"to" args) fun to =>
    if descriptorSetPath ≠ [] then
      Run.bind (getPackageSetForDescriptorSetPath h t descriptorSetPath) fun frm =>
      breakReport h t to.2 frm to.1
    else
      Run.bind (Run.lift (checkRelDirPath h (fileOrDir args))) fun _ =>
      Run.bind (temporaryClone h t gitBranch) fun dir =>
      removing t dir
        (Run.bind (getPackageSetAndConfig (cloneForWorkDirPath h t dir) t s%"from"
          [cloneDirFor dir (fileOrDir args)]) fun frm =>
        breakReport h t to.2 frm.1 to.1)

/-! ## config init -/

/-- `DefaultConfigFilename`, internal/settings/settings.go:33. -/
def defaultConfigFilename : Str := s%"prototool.yaml"

/-- `Init`, internal/exec/runner.go:168-189. Directories made do not show on the disk. -/
def initCmd (h : Host) (t : Tools) (args : List Str) (uncomment document : Bool) : Run Unit :=
  if args.length > 1 then Run.fail (.other s%"must provide one arg dirPath")
  else
    let dirPath := match args with | [a] => a | _ => h.workDirPath
    Run.bind (match args with | [a] => Run.lift (t.mkdirAll a) | _ => Run.pure ()) fun _ =>
    let filePath := Path.joinPath [dirPath, defaultConfigFilename]
    fun w =>
      if (w.disk filePath).isSome then (w, .error (.other (filePath ++ s%" already exists")))
      else (Run.bind (Run.lift (t.config uncomment document)) fun data => writeFile h filePath data) w

end Verif.Exec
