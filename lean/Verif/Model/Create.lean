import Verif.Model.Exec
import Verif.Model.Protostrs
import Verif.Model.Settings

/-!
# Model of internal/create

Files are known by their absolute clean path; symbolic links are not modelled. The configuration
files do not change while the command runs.
-/

namespace Verif.Create

open Verif Str Exec Path

/-- `handler`, internal/create/handler.go:73-79, with the tree the configuration provider
reads. -/
structure Handler where
  srt : SortSlice
  order : Order
  settings : Settings.Host
  develMode : Bool := false
  pkg : Str := []
  configData : Str := []

/-- `DefaultPackage`, internal/create/create.go:28. -/
def defaultPackage : Str := s%"uber.prototool.generated"

/-- `DefaultPackageV2`, internal/create/create.go:31. -/
def defaultPackageV2 : Str := s%"uber.prototool.generated.v1"

/-- `filepath.Dir` of the absolute path of the file, internal/create/handler.go:246-250 and
:290-294. -/
def absDir (host : Host) (filePath : Str) : Str := dir (File.absClean host.wd filePath)

/-- `checkFilePath`, internal/create/handler.go:114-137. What is neither absent nor a readable
file gives the error of reading it. -/
def checkFilePath (host : Host) (filePath : Str) : Run Unit := fun w =>
  if filePath = [] then (w, .error (.other s%"filePath empty"))
  else
    match host.stat (dir filePath) with
    | .error e => (w, .error (.other e))
    | .ok .regular | .ok .other =>
      (w, .error (.other (quote (dir filePath) ++ s%" is not a directory somehow")))
    | .ok .dir =>
      match w.disk (File.absClean host.wd filePath) with
      | some data =>
        if data.length > 0 then (w, .error (.other (quote filePath ++ s%" already exists")))
        else (w, .ok ())
      | none =>
        match host.stat filePath with
        | .ok _ => (w, .error (.other (host.missing filePath)))
        | .error _ => (w, .ok ())

/-- `getConfig`, internal/create/handler.go:289-299. -/
def getConfig (h : Handler) (host : Host) (filePath : Str) : Option (Except Err Settings.Config) :=
  if h.configData ≠ [] then
    some (Settings.getForData h.srt h.settings h.develMode (absDir host filePath) h.configData)
  else Settings.getForDir h.srt h.settings h.develMode (absDir host filePath)

/-- `isV2`, internal/create/handler.go:197-207. -/
def isV2 (c : Settings.Config) : Bool :=
  if c.dirPath = [] then false else toLower c.lint.group = s%"uber2"

/-- `getFileHeader`, internal/create/handler.go:209-219. -/
def getFileHeader (c : Settings.Config) : Str :=
  if c.dirPath = [] then [] else c.lint.fileHeader

/-- `getJavaPackagePrefix`, internal/create/handler.go:221-231. -/
def getJavaPackagePrefix (c : Settings.Config) : Str :=
  if c.dirPath = [] then [] else c.lint.javaPackagePrefix

/-- `getPkgFromRel`, internal/create/handler.go:301-313. -/
def getPkgFromRel (rel basePkg default : Str) : Str :=
  if rel = s%"." then
    if basePkg = [] then default else basePkg
  else
    let relPkg := join s%"." (splitChar '/' rel)
    if basePkg = [] then relPkg else basePkg ++ s%"." ++ relPkg

/-- One turn of the loop of `getPkg`, internal/create/handler.go:254-267. Lengths are compared
in characters instead of bytes; both directories are prefixes of the same path. -/
def longer (absDirPath : Str) (longest : Str × Str) (entry : Str × Str) : Str × Str :=
  if !hasPrefix absDirPath entry.1 then longest
  else if entry.1.length > longest.1.length then entry
  else longest

/-- `getPkg`, internal/create/handler.go:233-287. -/
def getPkg (h : Handler) (host : Host) (c : Settings.Config) (filePath default : Str) : Except Err Str :=
  if h.pkg ≠ [] then .ok h.pkg
  else if c.dirPath = [] then .ok default
  else
    let absDirPath := absDir host filePath
    let longest := (h.order.ord [s%"createPackages", filePath] c.dirPathToBasePackage).foldl
      (longer absDirPath) ([], [])
    if longest.1 ≠ [] then
      match rel longest.1 absDirPath with
      | none => .error s%"Rel: can't make the path relative"
      | some r => .ok (getPkgFromRel r longest.2 default)
    else if !hasPrefix absDirPath c.dirPath then .ok default
    else
      match rel c.dirPath absDirPath with
      | none => .error s%"Rel: can't make the path relative"
      | some r => .ok (getPkgFromRel r [] default)

/-- `tmplData`, internal/create/handler.go:62-71, for `tmplV1` without the fields it does not
use. -/
structure TmplData where
  header : Str
  pkg : Str
  csharpNamespace : Str := []
  goPkg : Str
  javaOuterClassname : Str
  javaPkg : Str
  objcClassPrefix : Str := []
  phpNamespace : Str := []

/-- `tmplV1` and `getDataV1`, internal/create/handler.go:38-46 and :315-321. -/
def getDataV1 (d : TmplData) : Str :=
  d.header ++ s%"syntax = \"proto3\";\n\npackage " ++ d.pkg ++ s%";\n\noption go_package = \"" ++ d.goPkg ++
    s%"\";\noption java_multiple_files = true;\noption java_outer_classname = \"" ++ d.javaOuterClassname ++
    s%"\";\noption java_package = \"" ++ d.javaPkg ++ s%"\";"

/-- `tmplV2` and `getDataV2`, internal/create/handler.go:48-58 and :323-329. -/
def getDataV2 (d : TmplData) : Str :=
  d.header ++ s%"syntax = \"proto3\";\n\npackage " ++ d.pkg ++ s%";\n\noption csharp_namespace = \"" ++
    d.csharpNamespace ++ s%"\";\noption go_package = \"" ++ d.goPkg ++
    s%"\";\noption java_multiple_files = true;\noption java_outer_classname = \"" ++ d.javaOuterClassname ++
    s%"\";\noption java_package = \"" ++ d.javaPkg ++ s%"\";\noption objc_class_prefix = \"" ++
    d.objcClassPrefix ++ s%"\";\noption php_namespace = \"" ++ d.phpNamespace ++ s%"\";"

/-- The text of a new file, internal/create/handler.go:148-194. -/
def content (c : Settings.Config) (filePath pkg : Str) : Str :=
  let fileHeader := getFileHeader c
  let fileHeader := if fileHeader ≠ [] then fileHeader ++ s%"\n\n" else fileHeader
  let javaPackagePrefix := getJavaPackagePrefix c
  if isV2 c then
    getDataV2
      { header := fileHeader, pkg := pkg
        csharpNamespace := Protostrs.csharpNamespace pkg
        goPkg := Protostrs.goPackageV2 pkg
        javaOuterClassname := Protostrs.javaOuterClassname filePath
        javaPkg := Protostrs.javaPackagePrefixOverride pkg javaPackagePrefix
        objcClassPrefix := Protostrs.objcClassPrefix pkg
        phpNamespace := Protostrs.phpNamespace pkg }
  else
    getDataV1
      { header := fileHeader, pkg := pkg
        goPkg := Protostrs.goPackage pkg
        javaOuterClassname := Protostrs.javaOuterClassname filePath
        javaPkg := Protostrs.javaPackagePrefixOverride pkg javaPackagePrefix }

/-- `create`, internal/create/handler.go:139-195. The four calls of `getConfig` give the same
result. -/
def create (h : Handler) (host : Host) (filePath : Str) : Run Unit :=
  Run.bind (Run.liftOption (getConfig h host filePath)) fun c =>
  Run.bind (Run.lift (getPkg h host c filePath (if isV2 c then defaultPackageV2 else defaultPackage)))
    fun pkg =>
  writeFile host (File.absClean host.wd filePath) (content c filePath pkg)

/-- The loops of `Create`. -/
def forEach (f : Str → Run Unit) : List Str → Run Unit
  | [] => Run.pure ()
  | p :: ps => Run.bind (f p) fun _ => forEach f ps

/-- `Create`, internal/create/handler.go:100-112. -/
def createCmd (h : Handler) (host : Host) (filePaths : List Str) : Run Unit :=
  Run.bind (forEach (checkFilePath host) filePaths) fun _ => forEach (create h host) filePaths

end Verif.Create
