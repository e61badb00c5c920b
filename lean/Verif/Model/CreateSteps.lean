import Verif.Model.Steps
import Verif.Model.Create
import Verif.Model.ExecMore

/-!
# `create` and `config init` as programs of steps

Between the check of a path and the writing of the file, other processes can do something. The configuration that
`create` reads does not change meanwhile, and the calls of one check are one step.
-/

namespace Verif.Exec

open Verif Str

/-- The result of other code that may not return, without a step. -/
def Prog.liftOption {α : Type} : Option (Except Err α) → Prog α
  | none => .done .crash
  | some r => .lift r

/-- `create`, internal/create/handler.go:139-195. -/
def createSteps (h : Create.Handler) (host : Host) (whole : Bool) (filePath : Str) : Prog Unit :=
  (Prog.liftOption (Create.getConfig h host filePath)).bind fun c =>
  (Prog.lift (Create.getPkg h host c filePath
    (if Create.isV2 c then Create.defaultPackageV2 else Create.defaultPackage))).bind fun pkg =>
  writeFileSteps host whole (File.absClean host.wd filePath) (Create.content c filePath pkg)

/-- The loops of `Create`, internal/create/handler.go:101-110. -/
def forEachSteps (f : Str → Prog Unit) : List Str → Prog Unit
  | [] => .done (.ok ())
  | p :: ps => (f p).bind fun _ => forEachSteps f ps

/-- `Create`, internal/create/handler.go:100-112. -/
def createCmdSteps (h : Create.Handler) (host : Host) (whole : Bool) (filePaths : List Str) : Prog Unit :=
  (forEachSteps (fun p => .atomic (Create.checkFilePath host p)) filePaths).bind fun _ =>
  forEachSteps (createSteps h host whole) filePaths

/-- `os.Stat` of the configuration file, internal/exec/runner.go:181-183. -/
def checkInit (filePath : Str) : Run Unit := fun w =>
  if (w.disk filePath).isSome then (w, .error (.other (filePath ++ s%" already exists"))) else (w, .ok ())

/-- `Init`, internal/exec/runner.go:168-189. -/
def initCmdSteps (h : Host) (t : Tools) (whole : Bool) (args : List Str) (uncomment document : Bool) : Prog Unit :=
  if args.length > 1 then .done (.error (.other s%"must provide one arg dirPath"))
  else
    let dirPath := match args with | [a] => a | _ => h.workDirPath
    (match args with | [a] => Prog.lift (t.mkdirAll a) | _ => .done (.ok ())).bind fun _ =>
    let filePath := Path.joinPath [dirPath, defaultConfigFilename]
    (Prog.atomic (checkInit filePath)).bind fun _ =>
    (Prog.lift (t.config uncomment document)).bind fun data =>
    writeFileSteps h whole filePath data

end Verif.Exec
