import Verif.Model.LintConfig
import Verif.Model.File

/-!
# Model of the lint run: internal/lint/lint.go:425-525 and internal/lint/runner.go
-/

namespace Verif.Lint

open Verif Proto Str

/-- What the run takes from outside: reading and parsing the file at a path under a given
file name, and `filepath.Abs`. -/
structure Host where
  parse : (path filename : Str) → Except Err (List Element × Str)
  abs : Str → Except Err Str

/-- One file of `GetDirPathToDescriptors`, internal/lint/lint.go:437-466. -/
def descriptorOf (host : Host) (protoSet : File.ProtoSet) (absolutePaths : Bool)
    (f : File.ProtoFile) : Except Err FileDescriptor :=
  let filename := if absolutePaths then f.path else f.displayPath
  match host.parse f.path filename with
  | .error e => .error e
  | .ok (elements, data) => .ok ⟨filename, elements, protoSet.config, data⟩

/-- The loop over the files of a directory, internal/lint/lint.go:436-467. -/
def descriptorsOf (host : Host) (protoSet : File.ProtoSet) (absolutePaths : Bool) :
    List File.ProtoFile → Except Err (List FileDescriptor)
  | [] => .ok []
  | f :: fs =>
    match descriptorOf host protoSet absolutePaths f with
    | .error e => .error e
    | .ok d =>
      match descriptorsOf host protoSet absolutePaths fs with
      | .error e => .error e
      | .ok ds => .ok (d :: ds)

/-- `GetDirPathToDescriptors`, internal/lint/lint.go:428-471. -/
def getDirPathToDescriptors (o : Order) (host : Host) (protoSet : File.ProtoSet)
    (absolutePaths : Bool) : Except Err (GoMap Str (List FileDescriptor)) :=
  mapLoop o [s%"GetDirPathToDescriptors"]
    ((protoSet.dirPathToFiles.filter fun p => hasPrefix p.1 protoSet.dirPath).map fun p =>
      match descriptorsOf host protoSet absolutePaths p.2 with
      | .error e => .error e
      | .ok ds => .ok (p.1, ds))

/-- `shouldIgnore`, internal/lint/lint.go:511-525. `none`: `IsExcluded` does not return. -/
def shouldIgnore (host : Host) (l : Linter) (d : FileDescriptor)
    (ignoreIDToFilePaths : GoMap Str (List Str)) : Option (Except Err Bool) :=
  match (if !Path.isAbs d.filename then host.abs d.filename else .ok d.filename) with
  | .error e => some (.error e)
  | .ok filePath =>
    match GoMap.get? ignoreIDToFilePaths l.id with
    | none => some (.ok false)
    | some paths =>
      match File.isExcluded filePath d.config.dirPath paths with
      | none => none
      | some b => some (.ok b)

/-- `filterIgnores`, internal/lint/lint.go:497-509. -/
def filterIgnores (host : Host) (l : Linter) (ignoreIDToFilePaths : GoMap Str (List Str)) :
    List FileDescriptor → Option (Except Err (List FileDescriptor))
  | [] => some (.ok [])
  | d :: ds =>
    match shouldIgnore host l d ignoreIDToFilePaths with
    | none => none
    | some (.error e) => some (.error e)
    | some (.ok ignore) =>
      match filterIgnores host l ignoreIDToFilePaths ds with
      | none => none
      | some (.error e) => some (.error e)
      | some (.ok rest) => some (.ok (if !ignore then d :: rest else rest))

/-- `checkOne`, internal/lint/lint.go:489-495. `none`: no result, because of a panic or an
endless loop. -/
def checkOne (host : Host) (l : Linter) (dirPath : Str) (ds : List FileDescriptor)
    (ignoreIDToFilePaths : GoMap Str (List Str)) : Option (Except Err (List Text.Failure)) :=
  match filterIgnores host l ignoreIDToFilePaths ds with
  | none => none
  | some (.error e) => some (.error e)
  | some (.ok filtered) => l.check dirPath filtered

/-- The loops of `CheckMultiple` appending the failures of every check, the first error or
panic ends them. -/
def collect : List (Option (Except Err (List Text.Failure))) →
    Option (Except Err (List Text.Failure))
  | [] => some (.ok [])
  | none :: _ => none
  | some (.error e) :: _ => some (.error e)
  | some (.ok fs) :: rest =>
    match collect rest with
    | none => none
    | some (.error e) => some (.error e)
    | some (.ok gs) => some (.ok (fs ++ gs))

/-- `CheckMultiple`, internal/lint/lint.go:474-487. -/
def checkMultiple (o : Order) (host : Host) (linters : List Linter)
    (dirPathToDescriptors : GoMap Str (List FileDescriptor))
    (ignoreIDToFilePaths : GoMap Str (List Str)) : Option (Except Err (List Text.Failure)) :=
  match collect ((o.ord [s%"CheckMultiple"] dirPathToDescriptors).flatMap fun p =>
      linters.map fun l => checkOne host l p.1 p.2 ignoreIDToFilePaths) with
  | none => none
  | some (.error e) => some (.error e)
  | some (.ok fs) => some (.ok (Text.sortFailures fs))

/-- `runner.Run`, internal/lint/runner.go:43-53. -/
def run (env : Env) (host : Host) (protoSet : File.ProtoSet) (absolutePaths : Bool) :
    Option (Except Err (List Text.Failure)) :=
  match getLinters env protoSet.config.lint with
  | .error e => some (.error e)
  | .ok linters =>
    match getDirPathToDescriptors env.order host protoSet absolutePaths with
    | .error e => some (.error e)
    | .ok dirs =>
      checkMultiple env.order host linters dirs protoSet.config.lint.ignoreIDToFilePaths

end Verif.Lint
