import Verif.Model.LintRun

/-!
# Model of `lint --generate-ignores`, internal/exec/runner.go:361-418
-/

namespace Verif.Lint

open Verif Str

/-- One turn of the loop over the failures, internal/exec/runner.go:373-384: adds the file,
relative to the directory of the configuration, to the set of the rule. -/
def addIgnore (configDirPath : Str) (m : GoMap Str (List Str)) (f : Text.Failure) :
    Except Err (GoMap Str (List Str)) :=
  if f.lintID ≠ [] && f.filename ≠ [] then
    match Path.rel configDirPath f.filename with
    | none => .error (s%"Rel: can't make " ++ f.filename ++ s%" relative to " ++ configDirPath)
    | some rel => .ok (GoMap.set m f.lintID (setInsert ((GoMap.get? m f.lintID).getD []) rel))
  else .ok m

/-- The loop over the failures. -/
def addIgnores (configDirPath : Str) (m : GoMap Str (List Str)) :
    List Text.Failure → Except Err (GoMap Str (List Str))
  | [] => .ok m
  | f :: fs =>
    match addIgnore configDirPath m f with
    | .error e => .error e
    | .ok m => addIgnores configDirPath m fs

/-- The `ignores` of the printed configuration, internal/exec/runner.go:386-411. -/
def ignoresOf (o : Order) (m : GoMap Str (List Str)) : List (Str × List Str) :=
  (sortStrs (o.ord [s%"generateIgnores", s%"ids"] (GoMap.keys m))).map fun id =>
    (id, sortStrs (o.ord [s%"generateIgnores", id] ((GoMap.get? m id).getD [])))

/-- `generateIgnores`, internal/exec/runner.go:361-418, up to the marshalling: the external
configuration it prints, or nothing if there are no failures. -/
def generateIgnores (env : Env) (host : Host) (protoSet : File.ProtoSet) :
    Option (Except Err (Option Settings.ExternalConfig)) :=
  let config := { protoSet.config with
    lint := { protoSet.config.lint with ignoreIDToFilePaths := [] } }
  match run env host { protoSet with config := config } true with
  | none => none
  | some (.error e) => some (.error e)
  | some (.ok failures) =>
    if failures.length = 0 then some (.ok none)
    else
      match addIgnores protoSet.config.dirPath [] failures with
      | .error e => some (.error e)
      | .ok m => some (.ok (some { ignores := ignoresOf env.order m }))

end Verif.Lint
