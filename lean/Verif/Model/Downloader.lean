import Verif.Model.Settings
import Verif.Model.File

/-!
# Model of the places protoc is downloaded from and to

internal/protoc/downloader.go without the logging. `Download` with its locks and writes
is in `Verif.Model.DownloadRun`.
-/

namespace Verif.Download

open Verif Str Path

/-- The fields of `downloader` that options and configuration set,
internal/protoc/downloader.go:54-70; `version` is `config.Compile.ProtobufVersion`. -/
structure Options where
  version : Str
  cachePath : Str := []
  protocURL : Str := []
  protocBinPath : Str := []
  protocWKTPath : Str := []
deriving DecidableEq

/-- What the functions ask the system: the environment variables, the working directory,
`runtime.GOOS` and `runtime.GOARCH`, and the encoded SHA-512 sum of a text. -/
structure Host where
  getenv : Str → Str
  wd : Str
  goos : Str
  goarch : Str
  sum : Str → Str

/-- `DefaultProtocVersion`, internal/vars/vars.go:32. -/
def defaultProtocVersion : Str := s%"3.11.0"

/-- What `os.Stat` says about a path. -/
inductive Stat where
  | file
  | dir
  | notExist (e : Err)
  | failed (e : Err)
deriving DecidableEq

/-- The result of `newDownloader`; `panic` is the use of the nil `info` at
internal/protoc/downloader.go:103. -/
inductive New where
  | ok (d : Options)
  | error (e : Err)
  | panic
deriving DecidableEq

/-- `newDownloader`, internal/protoc/downloader.go:72-110, with `stat` for `os.Stat`. -/
def newDownloader (stat : Str → Stat) (d : Options) : New :=
  let d := if d.version = [] then { d with version := defaultProtocVersion } else d
  if d.protocBinPath ≠ [] ∨ d.protocWKTPath ≠ [] then
    if d.protocURL ≠ [] then
      .error s%"cannot use protoc-url in combination with either protoc-bin-path or protoc-wkt-path"
    else if d.protocBinPath = [] ∨ d.protocWKTPath = [] then
      .error s%"both protoc-bin-path and protoc-wkt-path must be set"
    else
      let cleanBinPath := clean d.protocBinPath
      match stat cleanBinPath with
      | .notExist e => .error e
      | _ =>
        let cleanWKTPath := clean d.protocWKTPath
        match stat cleanWKTPath with
        | .notExist e => .error e
        | _ =>
          let protobufPath := joinPath [cleanWKTPath, s%"google", s%"protobuf"]
          match stat protobufPath with
          | .notExist e => .error e
          | .failed _ => .panic
          | .file => .error (quote protobufPath ++ s%" is not a valid well-known types directory")
          | .dir => .ok { d with protocBinPath := cleanBinPath, protocWKTPath := cleanWKTPath }
  else .ok d

/-- `getUnameSUnameMPaths`, internal/protoc/downloader.go:440-458. -/
def getUnameSUnameMPaths (goos goarch : Str) : Except Err (Str × Str) :=
  let unameS := if goos = s%"darwin" then some s%"Darwin"
    else if goos = s%"linux" then some s%"Linux" else none
  match unameS with
  | none => .error (s%"unsupported value for runtime.GOOS: " ++ goos)
  | some unameS =>
    if goarch = s%"amd64" then .ok (unameS, s%"x86_64")
    else .error (s%"unsupported value for runtime.GOARCH: " ++ goarch)

/-- `getProtocSPath`, internal/protoc/downloader.go:429-438. -/
def getProtocSPath (goos : Str) : Except Err Str :=
  if goos = s%"darwin" then .ok s%"osx"
  else if goos = s%"linux" then .ok s%"linux"
  else .error (s%"unsupported value for runtime.GOOS: " ++ goos)

/-- `ReplaceAllString` of `(rc)-(\d+$)` by `$1$2`, internal/protoc/downloader.go:316-317. The
expression can only match at the end: the digits there, after `rc-`. -/
def replaceRC (version : Str) : Str :=
  let digits := (version.reverse.takeWhile isDigit).reverse
  let rest := (version.reverse.dropWhile isDigit).reverse
  if digits ≠ [] ∧ hasSuffix rest s%"rc-" then rest.take (rest.length - 1) ++ digits else version

/-- `getProtocURL`, internal/protoc/downloader.go:302-326. -/
def getProtocURL (d : Options) (goos goarch : Str) : Except Err Str :=
  if d.protocURL ≠ [] then .ok d.protocURL
  else
    match getUnameSUnameMPaths goos goarch with
    | .error e => .error e
    | .ok (_, unameM) =>
      match getProtocSPath goos with
      | .error e => .error e
      | .ok protocS =>
        .ok (s%"https://github.com/protocolbuffers/protobuf/releases/download/v" ++
          replaceRC d.version ++ s%"/protoc-" ++ d.version ++ s%"-" ++ protocS ++ s%"-" ++ unameM ++
          s%".zip")

/-- `getDefaultBasePathInternalNoOSARCH`, internal/protoc/downloader.go:406-427. -/
def getDefaultBasePathNoOSARCH (h : Host) : Except Err Str :=
  match getUnameSUnameMPaths h.goos h.goarch with
  | .error e => .error e
  | .ok (unameS, _) =>
    let xdgCacheHome := h.getenv s%"XDG_CACHE_HOME"
    if xdgCacheHome ≠ [] then .ok (joinPath [xdgCacheHome, s%"prototool"])
    else
      let home := h.getenv s%"HOME"
      if home = [] then .error s%"HOME is not set"
      else if unameS = s%"Darwin" then .ok (joinPath [home, s%"Library", s%"Caches", s%"prototool"])
      else if unameS = s%"Linux" then .ok (joinPath [home, s%".cache", s%"prototool"])
      else .error (s%"invalid value for uname -s: " ++ unameS)

/-- `getDefaultBasePathInternal`, internal/protoc/downloader.go:390-400. -/
def getDefaultBasePath (h : Host) : Except Err Str :=
  match getDefaultBasePathNoOSARCH h with
  | .error e => .error e
  | .ok basePathNoOSARCH =>
    match getUnameSUnameMPaths h.goos h.goarch with
    | .error e => .error e
    | .ok (unameS, unameM) => .ok (joinPath [basePathNoOSARCH, unameS, unameM])

/-- `CheckAbs`, internal/file/file.go:146-151. -/
def checkAbs (path : Str) : Except Err Unit :=
  if isAbs path then .ok () else .error (s%"expected absolute path but was " ++ path)

/-- `getBasePathNoVersionOSARCH`, internal/protoc/downloader.go:336-354. -/
def getBasePathNoVersionOSARCH (h : Host) (d : Options) : Except Err Str :=
  match (if d.cachePath = [] then getDefaultBasePathNoOSARCH h
    else .ok (File.absClean h.wd d.cachePath)) with
  | .error e => .error e
  | .ok basePath =>
    match checkAbs basePath with
    | .error e => .error e
    | .ok () => .ok basePath

/-- `getBasePathNoVersion`, internal/protoc/downloader.go:356-374. -/
def getBasePathNoVersion (h : Host) (d : Options) : Except Err Str :=
  match (if d.cachePath = [] then getDefaultBasePath h
    else .ok (File.absClean h.wd d.cachePath)) with
  | .error e => .error e
  | .ok basePath =>
    match checkAbs basePath with
    | .error e => .error e
    | .ok () => .ok (joinPath [basePath, s%"protobuf"])

/-- `getBasePathVersionPart`, internal/protoc/downloader.go:376-384. -/
def getBasePathVersionPart (h : Host) (d : Options) : Str :=
  if d.protocURL ≠ [] then h.sum d.protocURL else d.version

/-- `getBasePath`, internal/protoc/downloader.go:328-334. -/
def getBasePath (h : Host) (d : Options) : Except Err Str :=
  match getBasePathNoVersion h d with
  | .error e => .error e
  | .ok basePathNoVersion => .ok (joinPath [basePathNoVersion, getBasePathVersionPart h d])

/-- `ProtocPath`, internal/protoc/downloader.go:122-131, with the result of `Download`. -/
def protocPath (d : Options) (downloaded : Except Err Str) : Except Err Str :=
  if d.protocBinPath ≠ [] then .ok d.protocBinPath
  else
    match downloaded with
    | .error e => .error e
    | .ok basePath => .ok (joinPath [basePath, s%"bin", s%"protoc"])

/-- `WellKnownTypesIncludePath`, internal/protoc/downloader.go:133-142, with the result of
`Download`. -/
def wktIncludePath (d : Options) (downloaded : Except Err Str) : Except Err Str :=
  if d.protocWKTPath ≠ [] then .ok d.protocWKTPath
  else
    match downloaded with
    | .error e => .error e
    | .ok basePath => .ok (joinPath [basePath, s%"include"])

/-- The answer of `http.Get`: the error, or the status and the body or the error of reading
it. -/
inductive Response where
  | failed (e : Err)
  | answered (status : Nat) (body : Except Err Str)

/-- The text of the error of internal/protoc/downloader.go:286. `err` is nil if the status was
not 200. -/
def githubError (url version : Str) (err : Option Err) : Err :=
  s%"error downloading " ++ url ++ s%": " ++ err.getD s%"<nil>" ++
    s%"\nMake sure GitHub Releases has a proper protoc zip file of the form protoc-VERSION-OS-ARCH.zip at https://github.com/protocolbuffers/protobuf/releases/v" ++
    version ++
    s%"\nNote that many micro versions do not have this, and no version before 3.0.0-beta-2 has this"

/-- `getDownloadData`, internal/protoc/downloader.go:265-300, with `readFile` for
`ioutil.ReadFile` and `get` for `http.Get`. A status other than 200 from a given URL is no error
and gives no data. -/
def getDownloadData (readFile : Str → Except Err Str) (get : Str → Response) (d : Options)
    (goos goarch : Str) : Except Err Str :=
  match getProtocURL d goos goarch with
  | .error e => .error e
  | .ok url =>
    if hasPrefix url s%"file://" then readFile (trimPrefix url s%"file://")
    else if hasPrefix url s%"http://" || hasPrefix url s%"https://" then
      match get url with
      | .failed e => if d.protocURL = [] then .error (githubError url d.version (some e)) else .error e
      | .answered status body =>
        if status ≠ 200 then
          if d.protocURL = [] then .error (githubError url d.version none) else .ok []
        else body
    else .error (s%"unknown url, can only handle http, https, file: " ++ url)

/-- The check of the version, internal/protoc/downloader.go:192-210. `output` is what
`protoc --version` prints, or `none` if it does not run. -/
def accepts (d : Options) (output : Option Str) : Bool :=
  match output with
  | none => false
  | some output =>
    if d.protocURL ≠ [] then true else trimSpace output = s%"libprotoc " ++ d.version

/-- An entry of the archive, with the content or the error of reading it. -/
structure Entry where
  name : Str
  isDir : Bool
  data : Except Err Str

/-- The path an entry is written to, internal/protoc/downloader.go:246. -/
def writePath (basePath : Str) (e : Entry) : Str := joinPath [basePath, e.name]

end Verif.Download
