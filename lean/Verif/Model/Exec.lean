import Verif.Go.TabWriter
import Verif.Model.BreakCmd
import Verif.Model.Desc
import Verif.Model.File
import Verif.Model.Format
import Verif.Model.GenerateIgnores

/-!
# Model of internal/exec

A command is a function from the world before to the world after and an outcome. The world is
the content of the files and what was written to the output. The compiler, the parser, `diff`,
the JSON and YAML encoders and git are parameters (`Host`).
-/

namespace Verif.Exec

open Verif Str

/-- An error a command returns: an `ExitError`, internal/exec/exec.go:34-42, or any other. -/
inductive RunErr where
  | exit (code : Int) (message : Str)
  | other (e : Err)
deriving DecidableEq

/-- How a command ends. `crash`: it panics or never returns. -/
inductive Outcome (α : Type) where
  | ok (a : α)
  | error (e : RunErr)
  | crash
deriving DecidableEq

/-- The files and their contents, the text written to the output so far, and the files written
so far with what was to be written. -/
structure World where
  disk : Str → Option Str
  out : Str := []
  writes : List (Str × Str) := []

/-- A command. -/
abbrev Run (α : Type) : Type := World → World × Outcome α

/-- `return a, nil`. -/
def Run.pure {α : Type} (a : α) : Run α := fun w => (w, .ok a)

/-- `return err`. -/
def Run.fail {α : Type} (e : RunErr) : Run α := fun w => (w, .error e)

/-- Go on with the result unless there was an error. -/
def Run.bind {α β : Type} (m : Run α) (f : α → Run β) : Run β := fun w =>
  match m w with
  | (w, .ok a) => f a w
  | (w, .error e) => (w, .error e)
  | (w, .crash) => (w, .crash)

/-- A result of other code. -/
def Run.lift {α : Type} : Except Err α → Run α
  | .ok a => Run.pure a
  | .error e => Run.fail (.other e)

/-- A result of other code that may not return. -/
def Run.liftOption {α : Type} : Option (Except Err α) → Run α
  | none => fun w => (w, .crash)
  | some r => Run.lift r

/-- The files of a proto set, their contents and so on are known by path. -/
abbrev Disk := Str → Option Str

/-- What `os.Stat` finds. -/
inductive Kind where
  | dir
  | regular
  | other
deriving DecidableEq

/-- Which options the compiler is made with, internal/exec/runner.go:949-1010. -/
structure CompileFlags where
  doGen : Bool := false
  doFileDescriptorSet : Bool := false
  fullControl : Bool := false
  includeImports : Bool := false
  includeSourceInfo : Bool := false

/-- The settings of the runner that matter here, internal/exec/runner.go:66-83, and the code
outside this module:

* `wd`: the working directory of the process, `workDirPath` that of the runner;
* `stat` and `getForDir` (`ProtoSetProvider.GetForDir`): the file tree, which no command modelled
  here changes;
* `missing`: the error for a file that cannot be read;
* `writeFile`: whether a write works, and if not the error and what is left in the file;
* `write`: given the output so far and a text, the output after writing the text, and the error;
* `flushed`: of a text in the buffered writer, what was passed on before an error ended the
  printing;
* `parse`: the parser, given the name of the file and its content;
* `compile`: the compiler, `protocCommands` its dry run and `generate` what the plugins make of
  the files;
* `diff`: `diff.Do`; `toJSON` and `toYAML`: the encoders. -/
structure Host where
  wd : Str
  workDirPath : Str
  errorFormat : Str
  json : Bool
  stat : Str → Except Err Kind
  getForDir : (workDirPath dirPath : Str) → Except Err File.ProtoSet
  missing : Str → Err
  writeFile : (path data : Str) → Except (Err × Option Str) Unit
  write : (out text : Str) → Str × Option Err
  flushed : Str → Str
  parse : (filename content : Str) → Except Err (List Proto.Element)
  compile : CompileFlags → Disk → File.ProtoSet →
    Except Err (List Text.Failure × List Descriptor.FileSet)
  protocCommands : CompileFlags → Disk → File.ProtoSet → Except Err (List Str)
  generate : Disk → File.ProtoSet → Disk
  diff : (before after filename : Str) → Except Err Str
  toJSON : Text.Failure → Except Err Str
  toYAML : Settings.ExternalConfig → Except Err Str

/-- Writes to the output. -/
def write (h : Host) (t : Str) : Run Unit := fun w =>
  match h.write w.out t with
  | (out, none) => ({ w with out := out }, .ok ())
  | (out, some e) => ({ w with out := out }, .error (.other e))

/-- `println`, internal/exec/runner.go:1211-1217. -/
def println (h : Host) (s : Str) : Run Unit :=
  if s = [] then Run.pure () else write h (s ++ s%"\n")

/-- The loops that print one line after the other. -/
def printAll (h : Host) : List Str → Run Unit
  | [] => Run.pure ()
  | s :: ss => Run.bind (println h s) fun _ => printAll h ss

/-- `ioutil.ReadFile`. -/
def readFile (h : Host) (path : Str) : Run Str := fun w =>
  match w.disk path with
  | some data => (w, .ok data)
  | none => (w, .error (.other (h.missing path)))

/-- A disk with another content at a path. -/
def Disk.set (d : Disk) (path : Str) (content : Option Str) : Disk := fun p =>
  if p = path then content else d p

/-- `ioutil.WriteFile`. -/
def writeFile (h : Host) (path data : Str) : Run Unit := fun w =>
  let w := { w with writes := w.writes ++ [(path, data)] }
  match h.writeFile path data with
  | .ok () => ({ w with disk := Disk.set w.disk path (some data) }, .ok ())
  | .error (e, left) => ({ w with disk := Disk.set w.disk path left }, .error (.other e))

/-- `meta`, internal/exec/runner.go:1086-1091. -/
structure Meta where
  protoSet : File.ProtoSet
  singleFilename : Str := []

/-- `fileOrDir` of `getMeta`, internal/exec/runner.go:1095-1098. -/
def fileOrDir : List Str → Str
  | [a] => a
  | _ => s%"."

/-- `getMeta`, internal/exec/runner.go:1099-1123, for that path. -/
def metaOf (h : Host) (path : Str) : Except Err Meta :=
  match h.stat path with
  | .error e => .error e
  | .ok .dir =>
    match h.getForDir h.workDirPath path with
    | .error e => .error e
    | .ok protoSet => .ok { protoSet := protoSet }
  | .ok .regular =>
    match h.getForDir h.workDirPath (Path.dir path) with
    | .error e => .error e
    | .ok protoSet => .ok { protoSet := protoSet, singleFilename := path }
  | .ok .other => .error (path ++ s%" is not a directory or a regular file")

/-- `getMeta`, internal/exec/runner.go:1093-1124. -/
def getMeta (h : Host) (args : List Str) : Run Meta := Run.lift (metaOf h (fileOrDir args))

/-! ## Printing failures -/

/-- The error of `ParseColonSeparatedFailureFields`, internal/text/text.go:84-110, if there is
one. -/
def fieldsError (errorFormat : Str) : Err :=
  match (splitChar ':' errorFormat).find? fun s => (Text.parseFailureField s).isNone with
  | some s => s%"could not parse " ++ s ++ s%" to a FailureField"
  | none => []

/-- Whether a failure is printed, internal/exec/runner.go:1149-1169. `none` is the nil `meta`. -/
def shouldPrint (h : Host) (meta_ : Option Meta) (f : Text.Failure) : Bool :=
  match meta_ with
  | none => true
  | some m =>
    if m.singleFilename = [] || m.singleFilename = f.filename then true
    else File.absClean h.wd m.singleFilename = File.absClean h.wd f.filename

/-- The line of a failure, internal/exec/runner.go:1170-1183. -/
def failureLine (h : Host) (fields : List Text.FailureField) (f : Text.Failure) : Except Err Str :=
  if h.json then
    match h.toJSON f with
    | .error e => .error e
    | .ok data => .ok (data ++ s%"\n")
  else
    match Text.fprintln f fields with
    | (t, true) => .ok t
    | (_, false) => .error (s%"unknown FailureField")

/-- The loop of `printFailuresForErrorFormat`, internal/exec/runner.go:1148-1184: what was
written to the buffer, and the error. -/
def failureLines (h : Host) (meta_ : Option Meta) (fields : List Text.FailureField) :
    List Text.Failure → Str → Str × Option Err
  | [], out => (out, none)
  | f :: fs, out =>
    if shouldPrint h meta_ f then
      match failureLine h fields f with
      | .error e => (out, some e)
      | .ok t => failureLines h meta_ fields fs (out ++ t)
    else failureLines h meta_ fields fs out

/-- `printFailuresForErrorFormat`, internal/exec/runner.go:1137-1186. -/
def printFailuresFor (h : Host) (errorFormat filename : Str) (meta_ : Option Meta)
    (failures : List Text.Failure) : Run Unit :=
  let failures := if filename = [] then failures
    else failures.map fun f => { f with filename := filename }
  match Text.parseColonSeparatedFailureFields errorFormat with
  | none => Run.fail (.other (fieldsError errorFormat))
  | some fields =>
    match failureLines h meta_ fields (Text.sortFailures failures) [] with
    | (t, none) => write h t
    | (t, some e) => fun w => ({ w with out := w.out ++ h.flushed t }, .error (.other e))

/-- `printFailures`, internal/exec/runner.go:1133-1135. -/
def printFailures (h : Host) (filename : Str) (m : Meta) (failures : List Text.Failure) : Run Unit :=
  printFailuresFor h h.errorFormat filename (some m) failures

/-- `newExitErrorf(255, "")`, internal/exec/runner.go:1226-1231. -/
def exit255 {α : Type} (message : Str := []) : Run α := Run.fail (.exit 255 message)

/-- `moreThanOneSet`, internal/exec/runner.go:1237-1245. -/
def moreThanOneSet (values : List Bool) : Bool := (values.filter id).length > 1

/-! ## compile -/

/-- `doCompile`, internal/exec/runner.go:287-299, with the compiler made by `newCompiler`
(949-963, whose checks the flags used here all pass). The files the plugins generate appear on
the disk; temporary files do not. -/
def doCompile (h : Host) (flags : CompileFlags) (m : Meta) : Run (List Descriptor.FileSet) := fun w =>
  let result := h.compile flags w.disk m.protoSet
  let w := if flags.doGen then { w with disk := h.generate w.disk m.protoSet } else w
  match result with
  | .error e => (w, .error (.other e))
  | .ok (failures, sets) =>
    (Run.bind (printFailures h [] m failures) fun _ =>
      if failures.length > 0 then exit255 else Run.pure sets) w

/-- `doProtocCommands`, internal/exec/runner.go:301-312. -/
def doProtocCommands (h : Host) (flags : CompileFlags) (m : Meta) : Run Unit := fun w =>
  match h.protocCommands flags w.disk m.protoSet with
  | .error e => (w, .error (.other e))
  | .ok commands => printAll h commands w

/-- `compile`, internal/exec/runner.go:265-277. -/
def compile (h : Host) (doGen doFileDescriptorSet dryRun : Bool) (m : Meta) :
    Run (List Descriptor.FileSet) :=
  let flags : CompileFlags :=
    { doGen := doGen, doFileDescriptorSet := if dryRun then false else doFileDescriptorSet }
  if dryRun then Run.bind (doProtocCommands h flags m) fun _ => Run.pure []
  else doCompile h flags m

/-- `Compile`, internal/exec/runner.go:245-253. `printAffectedFiles` only logs. -/
def compileCmd (h : Host) (args : List Str) (dryRun : Bool) : Run Unit :=
  Run.bind (getMeta h args) fun m =>
  Run.bind (compile h false false dryRun m) fun _ => Run.pure ()

/-- `Gen`, internal/exec/runner.go:255-263. -/
def genCmd (h : Host) (args : List Str) (dryRun : Bool) : Run Unit :=
  Run.bind (getMeta h args) fun m =>
  Run.bind (compile h true false dryRun m) fun _ => Run.pure ()

/-! ## files -/

/-- The entries of the proto set that a command is about, internal/exec/runner.go:227-231. -/
def dirsUnder (o : Order) (site : Str) (protoSet : File.ProtoSet) :
    List (Str × List File.ProtoFile) :=
  (o.ord [site] protoSet.dirPathToFiles).filter fun d => hasPrefix d.1 protoSet.dirPath

/-- `Files`, internal/exec/runner.go:221-243. -/
def filesCmd (h : Host) (o : Order) (args : List Str) : Run Unit :=
  Run.bind (getMeta h args) fun m =>
  printAll h (sortStrs ((dirsUnder o s%"Files" m.protoSet).flatMap fun d =>
    d.2.map fun f => f.displayPath))

/-! ## lint -/

/-- The files as the lint runner sees them. -/
def lintHost (h : Host) (disk : Disk) : Lint.Host where
  parse path filename :=
    match disk path with
    | none => .error (h.missing path)
    | some data =>
      match h.parse filename data with
      | .error e => .error e
      | .ok elements => .ok (elements, data)
  abs path := .ok (File.absClean h.wd path)

/-- `lint`, internal/exec/runner.go:347-359. -/
def lint (h : Host) (env : Lint.Env) (m : Meta) : Run Unit := fun w =>
  (Run.bind (Run.liftOption (Lint.run env (lintHost h w.disk) m.protoSet false)) fun failures =>
  Run.bind (printFailures h [] m failures) fun _ =>
  if failures.length > 0 then exit255 else Run.pure ()) w

/-- `generateIgnores`, internal/exec/runner.go:361-418. -/
def generateIgnores (h : Host) (env : Lint.Env) (m : Meta) : Run Unit := fun w =>
  (Run.bind (Run.liftOption (Lint.generateIgnores env (lintHost h w.disk) m.protoSet)) fun c =>
  match c with
  | none => Run.pure ()
  | some c => Run.bind (Run.lift (h.toYAML c)) fun data => println h (trimSpace data)) w

/-- `printLinters`, internal/exec/runner.go:1188-1197. -/
def printLinters (h : Host) (srt : SortSlice) (config : Settings.LintConfig)
    (linters : List Lint.Linter) : Run Unit :=
  write h (TabWriter.table ((srt.run (fun a b => Str.lt a.id b.id) linters).map fun l =>
    (l.id, l.purposeIn config)))

/-- `listLinters`, internal/exec/runner.go:420-426. -/
def listLinters (h : Host) (env : Lint.Env) (srt : SortSlice) (m : Meta) : Run Unit :=
  Run.bind (Run.lift (Lint.getLinters env m.protoSet.config.lint)) fun linters =>
  printLinters h srt m.protoSet.config.lint linters

/-- `listAllLinters`, internal/exec/runner.go:428-430. -/
def listAllLinters (h : Host) (env : Lint.Env) (srt : SortSlice) (m : Meta) : Run Unit :=
  printLinters h srt m.protoSet.config.lint (Lint.allLinters env)

/-- The lookup of a lint group, internal/exec/runner.go:433-436 and 1283-1286. -/
def lookupGroup (env : Lint.Env) (group : Str) : Run (List Lint.Linter) :=
  match GoMap.get? (Lint.groupToLinters env) (toLower group) with
  | none => exit255 (s%"unknown lint group: " ++ toLower group)
  | some linters => Run.pure linters

/-- `listLintGroup`, internal/exec/runner.go:432-438. -/
def listLintGroup (h : Host) (env : Lint.Env) (srt : SortSlice) (m : Meta) (group : Str) : Run Unit :=
  Run.bind (lookupGroup env group) fun linters =>
  printLinters h srt m.protoSet.config.lint linters

/-- `listAllLintGroups`, internal/exec/runner.go:440-452. -/
def listAllLintGroups (h : Host) (env : Lint.Env) : Run Unit :=
  printAll h (sortStrs (env.order.ord [s%"listAllLintGroups"] (GoMap.keys (Lint.groupToLinters env))))

/-- `getLinterIDs`, internal/exec/runner.go:1282-1292. -/
def getLinterIDs (env : Lint.Env) (group : Str) : Run (List Str) :=
  Run.bind (lookupGroup env group) fun linters =>
  Run.pure (linters.foldl (fun m l => setInsert m l.id) [])

/-- `diffMaps`, internal/exec/runner.go:1294-1308. -/
def diffMaps (o : Order) (one two : List Str) : List Str :=
  sortStrs
    ((((o.ord [s%"diffMaps", s%"one"] one).filter fun k => k ∉ two).map (s%"< " ++ ·)) ++
     (((o.ord [s%"diffMaps", s%"two"] two).filter fun k => k ∉ one).map (s%"> " ++ ·)))

/-- `diffLintGroups`, internal/exec/runner.go:454-473. -/
def diffLintGroups (h : Host) (env : Lint.Env) (groups : Str) : Run Unit :=
  match splitChar ',' groups with
  | [first, second] =>
    Run.bind (getLinterIDs env first) fun one =>
    Run.bind (getLinterIDs env second) fun two =>
    printAll h (diffMaps env.order one two)
  | _ => Run.fail (.other
      s%"argument to --diff-lint-groups must be two lint groups separated by '.', for example google,uber2")

/-- The flags of the lint command. -/
structure LintFlags where
  listAllLinters : Bool := false
  listLinters : Bool := false
  listAllLintGroups : Bool := false
  listLintGroup : Str := []
  diffLintGroups : Str := []
  generateIgnores : Bool := false

/-- `Lint`, internal/exec/runner.go:314-345. -/
def lintCmd (h : Host) (env : Lint.Env) (srt : SortSlice) (args : List Str) (flags : LintFlags) :
    Run Unit :=
  if moreThanOneSet [flags.listAllLinters, flags.listLinters, flags.listAllLintGroups,
      flags.listLintGroup ≠ [], flags.diffLintGroups ≠ [], flags.generateIgnores] then
    exit255 s%"can only set one of list-all-linters, list-linters, list-all-lint-groups, list-lint-group, diff-lint-groups, update-ignores"
  else if flags.listAllLintGroups then listAllLintGroups h env
  else if flags.diffLintGroups ≠ [] then diffLintGroups h env flags.diffLintGroups
  else
    Run.bind (getMeta h args) fun m =>
    if flags.listAllLinters then listAllLinters h env srt m
    else if flags.listLinters then listLinters h env srt m
    else if flags.listLintGroup ≠ [] then listLintGroup h env srt m flags.listLintGroup
    else
      Run.bind (compile h false false false m) fun _ =>
      if flags.generateIgnores then generateIgnores h env m else lint h env m

/-! ## format -/

/-- Which of the three modes of format is asked for; all false is the plain mode. -/
structure FormatFlags where
  overwrite : Bool := false
  diffMode : Bool := false
  lintMode : Bool := false
  fix : Bool := false

/-- What the formatter is made with, internal/exec/runner.go:1018-1030 and 1247-1269. -/
def formatParams (fix : Bool) (m : Meta) (filename : Str) : Format.Params where
  filename := filename
  fix := if !fix then Format.fixNone
    else if m.protoSet.config.lint.group = s%"uber2" then Format.fixV2 else Format.fixV1
  fileHeader := if !fix then [] else m.protoSet.config.lint.fileHeader
  javaPackagePrefix := if !fix then [] else m.protoSet.config.lint.javaPackagePrefix

/-- `Transform` on the content of a file: parsing, then `Format.transform`. -/
def transform (h : Host) (srt : SortSlice) (q : Format.Params) (content : Str) :
    Except Err (Str × List Text.Failure) :=
  match h.parse q.filename content with
  | .error e => .error e
  | .ok elements => Format.transform srt q elements

/-- `formatFile`, internal/exec/runner.go:516-570. -/
def formatFile (h : Host) (srt : SortSlice) (flags : FormatFlags) (m : Meta)
    (f : File.ProtoFile) : Run Bool :=
  if m.singleFilename ≠ [] ∧ f.path ≠ File.absClean h.wd m.singleFilename then Run.pure true
  else
    Run.bind (readFile h f.path) fun input =>
    Run.bind (Run.lift (transform h srt (formatParams flags.fix m f.path) input)) fun r =>
    if r.2.length > 0 then
      Run.bind (printFailures h f.displayPath m r.2) fun _ => Run.pure false
    else if input ≠ r.1 then
      if flags.overwrite then Run.bind (writeFile h f.path r.1) fun _ => Run.pure true
      else if flags.lintMode then
        Run.bind (printFailures h [] m
          [{ filename := f.displayPath, line := 0, column := 0, lintID := s%"FORMAT_DIFF",
             message := s%"Format returned a diff." }]) fun _ => Run.pure false
      else if flags.diffMode then
        Run.bind (Run.lift (h.diff input r.1 f.displayPath)) fun d =>
        Run.bind (write h d) fun _ => Run.pure false
      else Run.bind (write h r.1) fun _ => Run.pure false
    else if !flags.overwrite && !flags.lintMode && !flags.diffMode then
      Run.bind (write h r.1) fun _ => Run.pure true
    else Run.pure true

/-- The loops of `format`, internal/exec/runner.go:491-506: whether all went well. -/
def formatFiles (h : Host) (srt : SortSlice) (flags : FormatFlags) (m : Meta) :
    List File.ProtoFile → Bool → Run Bool
  | [], success => Run.pure success
  | f :: fs, success =>
    Run.bind (formatFile h srt flags m f) fun ok => formatFiles h srt flags m fs (success && ok)

/-- `format`, internal/exec/runner.go:490-511. -/
def format (h : Host) (o : Order) (srt : SortSlice) (flags : FormatFlags) (m : Meta) : Run Unit :=
  Run.bind (formatFiles h srt flags m ((dirsUnder o s%"format" m.protoSet).flatMap (·.2)) true) fun ok =>
  if !ok then exit255 else Run.pure ()

/-- `Format`, internal/exec/runner.go:475-488. -/
def formatCmd (h : Host) (o : Order) (srt : SortSlice) (args : List Str) (flags : FormatFlags) :
    Run Unit :=
  if moreThanOneSet [flags.overwrite, flags.diffMode, flags.lintMode] then
    exit255 s%"can only set one of overwrite, diff, lint"
  else
    Run.bind (getMeta h args) fun m =>
    Run.bind (compile h false false false m) fun _ => format h o srt flags m

/-! ## all -/

/-- `All`, internal/exec/runner.go:572-593. -/
def allCmd (h : Host) (env : Lint.Env) (srt : SortSlice) (args : List Str)
    (disableFormat disableLint fix : Bool) : Run Unit :=
  Run.bind (getMeta h args) fun m =>
  Run.bind (compile h false false false m) fun _ =>
  Run.bind (if !disableFormat then
      format h env.order srt { overwrite := true, fix := fix } m
    else Run.pure ()) fun _ =>
  Run.bind (compile h true false false m) fun _ =>
  if !disableLint then lint h env m else Run.pure ()

end Verif.Exec
