import Verif.Model.ExecMore
import Verif.Model.Create
import Verif.Model.DownloadRun
import Verif.Model.Grpc

/-!
# Model of internal/cmd

The command line. Splitting the arguments into a command, positional arguments and flag values is
done by the cobra and pflag libraries and is a parameter; which flags and arguments each command
takes, what they set, what the commands are called with and the exit code are modelled.
-/

namespace Verif.Cmd

open Verif Str Exec

/-! ## Flags -/

/-- The value of a flag. -/
inductive Value where
  | str (s : Str)
  | bool (b : Bool)
  | list (l : List Str)
deriving DecidableEq

/-- `flags`, internal/cmd/flags.go:27-74. -/
structure Flags where
  address : Str := []
  cachePath : Str := []
  callTimeout : Str := []
  configData : Str := []
  connectTimeout : Str := []
  data : Str := []
  debug : Bool := false
  descriptorSetPath : Str := []
  details : Bool := false
  diffLintGroups : Str := []
  diffMode : Bool := false
  disableFormat : Bool := false
  disableLint : Bool := false
  dryRun : Bool := false
  document : Bool := false
  errorFormat : Str := []
  fix : Bool := false
  gitBranch : Str := []
  headers : List Str := []
  includeImports : Bool := false
  includeSourceInfo : Bool := false
  json : Bool := false
  keepaliveTime : Str := []
  lintMode : Bool := false
  listAllLinters : Bool := false
  listLinters : Bool := false
  listAllLintGroups : Bool := false
  listLintGroup : Str := []
  method : Str := []
  name : Str := []
  outputPath : Str := []
  overwrite : Bool := false
  pkg : Str := []
  protocURL : Str := []
  protocBinPath : Str := []
  protocWKTPath : Str := []
  stdin : Bool := false
  uncomment : Bool := false
  generateIgnores : Bool := false
  tmp : Bool := false
  tls : Bool := false
  insecure : Bool := false
  cacert : Str := []
  cert : Str := []
  key : Str := []
  serverName : Str := []
  walkTimeout : Str := []
deriving DecidableEq

/-- The methods that bind flags, internal/cmd/flags.go:77-267. -/
inductive Bind where
  | address | cachePath | callTimeout | configData | connectTimeout | data | debug
  | descriptorSetPath | details | diffLintGroups | diffMode | disableFormat | disableLint
  | dryRun | document | errorFormat | fix | gitBranch | headers | includeImports
  | includeSourceInfo | json | keepaliveTime | lintMode | listAllLinters | listLinters
  | listAllLintGroups | listLintGroup | method | name_ | outputPath
  | outputPathBreakDescriptorSet | overwrite | package_ | protocURL | protocBinPath
  | protocWKTPath | stdin | uncomment | generateIgnores | tmp | tls | insecure | cacert | cert
  | key | serverName | walkTimeout
deriving DecidableEq

/-- The name of the flag, internal/cmd/flags.go:77-267. -/
def Bind.name : Bind → Str
  | .address => s%"address"
  | .cachePath => s%"cache-path"
  | .callTimeout => s%"call-timeout"
  | .configData => s%"config-data"
  | .connectTimeout => s%"connect-timeout"
  | .data => s%"data"
  | .debug => s%"debug"
  | .descriptorSetPath => s%"descriptor-set-path"
  | .details => s%"details"
  | .diffLintGroups => s%"diff-lint-groups"
  | .diffMode => s%"diff"
  | .disableFormat => s%"disable-format"
  | .disableLint => s%"disable-lint"
  | .dryRun => s%"dry-run"
  | .document => s%"document"
  | .errorFormat => s%"error-format"
  | .fix => s%"fix"
  | .gitBranch => s%"git-branch"
  | .headers => s%"header"
  | .includeImports => s%"include-imports"
  | .includeSourceInfo => s%"include-source-info"
  | .json => s%"json"
  | .keepaliveTime => s%"keepalive-time"
  | .lintMode => s%"lint"
  | .listAllLinters => s%"list-all-linters"
  | .listLinters => s%"list-linters"
  | .listAllLintGroups => s%"list-all-lint-groups"
  | .listLintGroup => s%"list-lint-group"
  | .method => s%"method"
  | .name_ => s%"name"
  | .outputPath => s%"output-path"
  | .outputPathBreakDescriptorSet => s%"output-path"
  | .overwrite => s%"overwrite"
  | .package_ => s%"package"
  | .protocURL => s%"protoc-url"
  | .protocBinPath => s%"protoc-bin-path"
  | .protocWKTPath => s%"protoc-wkt-path"
  | .stdin => s%"stdin"
  | .uncomment => s%"uncomment"
  | .generateIgnores => s%"generate-ignores"
  | .tmp => s%"tmp"
  | .tls => s%"tls"
  | .insecure => s%"insecure"
  | .cacert => s%"cacert"
  | .cert => s%"cert"
  | .key => s%"key"
  | .serverName => s%"server-name"
  | .walkTimeout => s%"walk-timeout"

/-- The one-letter name of the flag, internal/cmd/flags.go:77-267. -/
def Bind.shorthand : Bind → Option Char
  | .descriptorSetPath => some 'f'
  | .diffMode => some 'd'
  | .fix => some 'f'
  | .headers => some 'H'
  | .lintMode => some 'l'
  | .outputPath => some 'o'
  | .outputPathBreakDescriptorSet => some 'o'
  | .overwrite => some 'w'
  | _ => none

/-- The value without the flag, internal/cmd/flags.go:77-267. -/
def Bind.default : Bind → Value
  | .address => .str []
  | .cachePath => .str []
  | .callTimeout => .str s%"60s"
  | .configData => .str []
  | .connectTimeout => .str s%"10s"
  | .data => .str []
  | .debug => .bool false
  | .descriptorSetPath => .str []
  | .details => .bool false
  | .diffLintGroups => .str []
  | .diffMode => .bool false
  | .disableFormat => .bool false
  | .disableLint => .bool false
  | .dryRun => .bool false
  | .document => .bool false
  | .errorFormat => .str s%"filename:line:column:message"
  | .fix => .bool false
  | .gitBranch => .str []
  | .headers => .list []
  | .includeImports => .bool false
  | .includeSourceInfo => .bool false
  | .json => .bool false
  | .keepaliveTime => .str []
  | .lintMode => .bool false
  | .listAllLinters => .bool false
  | .listLinters => .bool false
  | .listAllLintGroups => .bool false
  | .listLintGroup => .str []
  | .method => .str []
  | .name_ => .str []
  | .outputPath => .str []
  | .outputPathBreakDescriptorSet => .str []
  | .overwrite => .bool false
  | .package_ => .str []
  | .protocURL => .str []
  | .protocBinPath => .str []
  | .protocWKTPath => .str []
  | .stdin => .bool false
  | .uncomment => .bool false
  | .generateIgnores => .bool false
  | .tmp => .bool false
  | .tls => .bool false
  | .insecure => .bool false
  | .cacert => .str []
  | .cert => .str []
  | .key => .str []
  | .serverName => .str []
  | .walkTimeout => .str s%"3s"

/-- The field that is set, internal/cmd/flags.go:77-267. pflag only stores values of the type of the
flag. Lists add up. -/
def Bind.set : Bind → Value → Flags → Flags
  | .address, .str s, f => { f with address := s }
  | .cachePath, .str s, f => { f with cachePath := s }
  | .callTimeout, .str s, f => { f with callTimeout := s }
  | .configData, .str s, f => { f with configData := s }
  | .connectTimeout, .str s, f => { f with connectTimeout := s }
  | .data, .str s, f => { f with data := s }
  | .debug, .bool b, f => { f with debug := b }
  | .descriptorSetPath, .str s, f => { f with descriptorSetPath := s }
  | .details, .bool b, f => { f with details := b }
  | .diffLintGroups, .str s, f => { f with diffLintGroups := s }
  | .diffMode, .bool b, f => { f with diffMode := b }
  | .disableFormat, .bool b, f => { f with disableFormat := b }
  | .disableLint, .bool b, f => { f with disableLint := b }
  | .dryRun, .bool b, f => { f with dryRun := b }
  | .document, .bool b, f => { f with document := b }
  | .errorFormat, .str s, f => { f with errorFormat := s }
  | .fix, .bool b, f => { f with fix := b }
  | .gitBranch, .str s, f => { f with gitBranch := s }
  | .headers, .list l, f => { f with headers := f.headers ++ l }
  | .includeImports, .bool b, f => { f with includeImports := b }
  | .includeSourceInfo, .bool b, f => { f with includeSourceInfo := b }
  | .json, .bool b, f => { f with json := b }
  | .keepaliveTime, .str s, f => { f with keepaliveTime := s }
  | .lintMode, .bool b, f => { f with lintMode := b }
  | .listAllLinters, .bool b, f => { f with listAllLinters := b }
  | .listLinters, .bool b, f => { f with listLinters := b }
  | .listAllLintGroups, .bool b, f => { f with listAllLintGroups := b }
  | .listLintGroup, .str s, f => { f with listLintGroup := s }
  | .method, .str s, f => { f with method := s }
  | .name_, .str s, f => { f with name := s }
  | .outputPath, .str s, f => { f with outputPath := s }
  | .outputPathBreakDescriptorSet, .str s, f => { f with outputPath := s }
  | .overwrite, .bool b, f => { f with overwrite := b }
  | .package_, .str s, f => { f with pkg := s }
  | .protocURL, .str s, f => { f with protocURL := s }
  | .protocBinPath, .str s, f => { f with protocBinPath := s }
  | .protocWKTPath, .str s, f => { f with protocWKTPath := s }
  | .stdin, .bool b, f => { f with stdin := b }
  | .uncomment, .bool b, f => { f with uncomment := b }
  | .generateIgnores, .bool b, f => { f with generateIgnores := b }
  | .tmp, .bool b, f => { f with tmp := b }
  | .tls, .bool b, f => { f with tls := b }
  | .insecure, .bool b, f => { f with insecure := b }
  | .cacert, .str s, f => { f with cacert := s }
  | .cert, .str s, f => { f with cert := s }
  | .key, .str s, f => { f with key := s }
  | .serverName, .str s, f => { f with serverName := s }
  | .walkTimeout, .str s, f => { f with walkTimeout := s }
  | _, _, f => f

/-! ## Commands -/

/-- The commands, internal/cmd/cmd.go:100-138. -/
inductive Command where
  | all | breakCheck | breakDescriptorSet | cacheUpdate | cacheDelete | compile | create
  | descriptorSet | files | format | generate | grpc | inspectPackages | inspectPackageDeps
  | inspectPackageImporters | configInit | lint | version
deriving DecidableEq

/-- The words of a command, internal/cmd/cmd.go:100-138. -/
def Command.words : Command → List Str
  | .all => [s%"all"]
  | .breakCheck => [s%"break", s%"check"]
  | .breakDescriptorSet => [s%"break", s%"descriptor-set"]
  | .cacheUpdate => [s%"cache", s%"update"]
  | .cacheDelete => [s%"cache", s%"delete"]
  | .compile => [s%"compile"]
  | .create => [s%"create"]
  | .descriptorSet => [s%"descriptor-set"]
  | .files => [s%"files"]
  | .format => [s%"format"]
  | .generate => [s%"generate"]
  | .grpc => [s%"grpc"]
  | .inspectPackages => [s%"x", s%"inspect", s%"packages"]
  | .inspectPackageDeps => [s%"x", s%"inspect", s%"package-deps"]
  | .inspectPackageImporters => [s%"x", s%"inspect", s%"package-importers"]
  | .configInit => [s%"config", s%"init"]
  | .lint => [s%"lint"]
  | .version => [s%"version"]

/-- `BindFlags`, internal/cmd/templates.go:41-519. -/
def Command.binds : Command → List Bind
  | .all =>
    [.cachePath, .configData, .disableFormat, .disableLint, .errorFormat, .json, .fix,
     .protocURL, .protocBinPath, .protocWKTPath, .walkTimeout]
  | .breakCheck =>
    [.cachePath, .configData, .descriptorSetPath, .gitBranch, .json, .protocURL,
     .protocBinPath, .protocWKTPath, .walkTimeout]
  | .breakDescriptorSet =>
    [.cachePath, .configData, .errorFormat, .json, .protocURL, .protocBinPath, .protocWKTPath,
     .outputPathBreakDescriptorSet, .walkTimeout]
  | .cacheUpdate =>
    [.cachePath, .configData, .walkTimeout]
  | .cacheDelete => []
  | .compile =>
    [.cachePath, .configData, .dryRun, .errorFormat, .json, .protocURL, .protocBinPath,
     .protocWKTPath, .walkTimeout]
  | .create =>
    [.configData, .package_]
  | .descriptorSet =>
    [.cachePath, .configData, .errorFormat, .includeImports, .includeSourceInfo, .json,
     .protocURL, .protocBinPath, .protocWKTPath, .outputPath, .tmp, .walkTimeout]
  | .files =>
    [.configData, .walkTimeout]
  | .format =>
    [.cachePath, .configData, .diffMode, .errorFormat, .json, .lintMode, .overwrite, .fix,
     .protocURL, .protocBinPath, .protocWKTPath, .walkTimeout]
  | .generate =>
    [.cachePath, .configData, .dryRun, .errorFormat, .json, .protocURL, .protocBinPath,
     .protocWKTPath, .walkTimeout]
  | .grpc =>
    [.cachePath, .configData, .address, .callTimeout, .connectTimeout, .data, .details,
     .errorFormat, .headers, .keepaliveTime, .method, .stdin, .protocURL, .protocBinPath,
     .protocWKTPath, .tls, .insecure, .cacert, .cert, .key, .serverName, .walkTimeout]
  | .inspectPackages =>
    [.cachePath, .configData, .errorFormat, .protocURL, .protocBinPath, .protocWKTPath,
     .walkTimeout]
  | .inspectPackageDeps =>
    [.cachePath, .configData, .errorFormat, .name_, .protocURL, .protocBinPath, .protocWKTPath,
     .walkTimeout]
  | .inspectPackageImporters =>
    [.cachePath, .configData, .errorFormat, .name_, .protocURL, .protocBinPath, .protocWKTPath,
     .walkTimeout]
  | .configInit =>
    [.document, .uncomment]
  | .lint =>
    [.cachePath, .configData, .errorFormat, .json, .listAllLinters, .listLinters,
     .listAllLintGroups, .listLintGroup, .diffLintGroups, .protocURL, .protocBinPath,
     .protocWKTPath, .generateIgnores, .walkTimeout]
  | .version =>
    [.json]

/-- `Args`, internal/cmd/templates.go:41-519: whether a number of arguments is accepted. -/
def Command.takes : Command → Nat → Bool
  | .all, n => decide (n ≤ 1)
  | .breakCheck, n => decide (n ≤ 1)
  | .breakDescriptorSet, n => decide (n ≤ 1)
  | .cacheUpdate, n => decide (n ≤ 1)
  | .cacheDelete, n => decide (n = 0)
  | .compile, n => decide (n ≤ 1)
  | .create, n => decide (1 ≤ n)
  | .descriptorSet, n => decide (n ≤ 1)
  | .files, n => decide (n ≤ 1)
  | .format, n => decide (n ≤ 1)
  | .generate, n => decide (n ≤ 1)
  | .grpc, n => decide (n ≤ 1)
  | .inspectPackages, n => decide (n ≤ 1)
  | .inspectPackageDeps, n => decide (n ≤ 1)
  | .inspectPackageImporters, n => decide (n ≤ 1)
  | .configInit, n => decide (n ≤ 1)
  | .lint, n => decide (n ≤ 1)
  | .version, n => decide (n = 0)

/-- All commands, in the order in which they are built, internal/cmd/cmd.go:100-138. -/
def commands : List Command :=
  [.all, .compile, .create, .files, .format, .generate, .grpc, .descriptorSet, .configInit,
   .lint, .version, .cacheUpdate, .cacheDelete, .breakCheck, .breakDescriptorSet,
   .inspectPackages, .inspectPackageDeps, .inspectPackageImporters]

/-- The flags before the arguments are looked at: each binding sets its field to the default, and all
commands are built, internal/cmd/cmd.go:97-145. -/
def initial : Flags :=
  (commands.flatMap Command.binds ++ [Bind.debug]).foldl (fun f b => b.set b.default f) {}

/-- The flags a command has: its own and the global one, internal/cmd/cmd.go:140-141. -/
def Command.flags (c : Command) : List Bind := c.binds ++ [.debug]

/-- The flags after the values given on the command line; `none` for a flag the command does not
have. -/
def Command.parse (c : Command) : List (Str × Value) → Flags → Option Flags
  | [], f => some f
  | (name, value) :: rest, f =>
    match c.flags.find? (fun b => b.name = name) with
    | none => none
    | some b => c.parse rest (b.set value f)
/-! ## The runner -/

/-- What the functions ask the system: the environment variables, `os.Getwd`,
`time.ParseDuration` in nanoseconds, `runtime.GOOS`, `runtime.GOARCH` and `runtime.Version`. -/
structure Environ where
  getenv : Str → Str
  getwd : Except Err Str
  parseDuration : Str → Except Err Int
  goos : Str
  goarch : Str
  goVersion : Str

/-- `runner`, internal/exec/runner.go:66-83. -/
structure Runner where
  workDirPath : Str
  develMode : Bool
  cachePath : Str
  configData : Str
  protocBinPath : Str
  protocWKTPath : Str
  protocURL : Str
  errorFormat : Str
  json : Bool
  walkTimeout : Int
deriving DecidableEq

/-- A flag or else an environment variable, internal/cmd/templates.go:595-605, :618-628 and
:629-639. -/
def orEnv (e : Environ) (flag var : Str) : Str :=
  if flag ≠ [] then flag else e.getenv var

/-- `getRunner`, internal/cmd/templates.go:587-673, and `newRunner`,
internal/exec/runner.go:85-113. Options that are not given leave the zero value. -/
def getRunner (e : Environ) (develMode : Bool) (f : Flags) : Except Err Runner :=
  match (if f.walkTimeout ≠ [] then e.parseDuration f.walkTimeout else .ok 0) with
  | .error err => .error err
  | .ok walkTimeout =>
    match e.getwd with
    | .error err => .error err
    | .ok workDirPath => .ok {
        workDirPath := workDirPath
        develMode := develMode
        cachePath := orEnv e f.cachePath s%"PROTOTOOL_CACHE_PATH"
        configData := f.configData
        protocBinPath := orEnv e f.protocBinPath s%"PROTOTOOL_PROTOC_BIN_PATH"
        protocWKTPath := orEnv e f.protocWKTPath s%"PROTOTOOL_PROTOC_WKT_PATH"
        protocURL := f.protocURL
        errorFormat := f.errorFormat
        json := f.json
        walkTimeout := walkTimeout }

/-- The rest of the program, and the code outside it:

* `host`: what the commands of a runner ask the system and the compiler. The working directory, the
  error format and the JSON setting are those of the runner (`System.hostOf`);
* `tools`, `lint`, `srt`, `grpc`, `settings`: the parameters of the other modules;
* `stat`: `os.Stat` for the downloader; `sum`: the encoded SHA-512 sum;
* `download`: `Download` with some options. -/
structure System where
  environ : Environ
  host : Runner → Exec.Host
  tools : Runner → Exec.Tools
  lint : Lint.Env
  srt : SortSlice
  grpc : Grpc.Env
  settings : Settings.Host
  stat : Str → Download.Stat
  sum : Str → Str
  download : Download.Options → Disk → Disk × Option Err

/-- The host for a runner. -/
def System.hostOf (s : System) (r : Runner) : Exec.Host :=
  { s.host r with workDirPath := r.workDirPath, errorFormat := r.errorFormat, json := r.json }

/-- What the downloader asks the system. -/
def System.downloadHost (s : System) (r : Runner) : Download.Host where
  getenv := s.environ.getenv
  wd := r.workDirPath
  goos := s.environ.goos
  goarch := s.environ.goarch
  sum := s.sum

/-- `newDownloader`, internal/exec/runner.go:918-947, up to `protoc.NewDownloader`. -/
def downloaderOptions (r : Runner) (config : Settings.Config) : Download.Options where
  version := config.compile.protobufVersion
  cachePath := r.cachePath
  protocURL := r.protocURL
  protocBinPath := r.protocBinPath
  protocWKTPath := r.protocWKTPath

/-- `newDownloader`, internal/exec/runner.go:918-947. -/
def newDownloader (s : System) (r : Runner) (config : Settings.Config) : Run Download.Options := fun w =>
  match Download.newDownloader s.stat (downloaderOptions r config) with
  | .ok d => (w, .ok d)
  | .error e => (w, .error (.other e))
  | .panic => (w, .crash)

/-- What a function does to the files, and its error. -/
def onDisk (f : Disk → Disk × Option Err) : Run Unit := fun w =>
  match f w.disk with
  | (disk, none) => ({ w with disk := disk }, .ok ())
  | (disk, some e) => ({ w with disk := disk }, .error (.other e))

/-- `CacheUpdate`, internal/exec/runner.go:195-206. -/
def cacheUpdateCmd (s : System) (r : Runner) (args : List Str) : Run Unit :=
  Run.bind (getMeta (s.hostOf r) args) fun m =>
  Run.bind (newDownloader s r m.protoSet.config) fun d => onDisk (s.download d)

/-- `CacheDelete`, internal/exec/runner.go:208-219. -/
def cacheDeleteCmd (s : System) (r : Runner) : Run Unit :=
  Run.bind (getMeta (s.hostOf r) []) fun m =>
  Run.bind (newDownloader s r m.protoSet.config) fun d =>
  onDisk (Download.delete (s.downloadHost r) d)

/-- `Version`, internal/exec/runner.go:131-166; `vars.Version` is from internal/vars/vars.go:26. -/
def versionCmd (s : System) (r : Runner) : Run Unit :=
  let h := s.hostOf r
  if r.json then
    write h (Json.encodeIndented (Json.stringMember s%"version" s%"1.11.0-dev" ++
      Json.stringMember s%"default_protoc_version" Download.defaultProtocVersion ++
      Json.stringMember s%"go_version" s.environ.goVersion ++
      Json.stringMember s%"goos" s.environ.goos ++ Json.stringMember s%"goarch" s.environ.goarch))
  else
    write h (TabWriter.table [(s%"Version:", s%"1.11.0-dev"),
      (s%"Default protoc version:", Download.defaultProtocVersion),
      (s%"Go version:", s.environ.goVersion),
      (s%"OS/Arch:", s.environ.goos ++ s%"/" ++ s.environ.goarch)])

/-- `newCreateHandler`, internal/exec/runner.go:1032-1047. -/
def createHandler (s : System) (r : Runner) (pkg : Str) : Create.Handler where
  srt := s.srt
  order := s.lint.order
  settings := s.settings
  develMode := r.develMode
  pkg := pkg
  configData := r.configData

/-- The flags of the grpc command. -/
def Flags.forGrpc (f : Flags) : Grpc.Flags where
  headers := f.headers
  address := f.address
  method := f.method
  data := f.data
  callTimeout := f.callTimeout
  connectTimeout := f.connectTimeout
  keepaliveTime := f.keepaliveTime
  stdin := f.stdin
  details := f.details
  tls := f.tls
  insecure := f.insecure
  cacert := f.cacert
  cert := f.cert
  key := f.key
  serverName := f.serverName

/-- `Run` of the commands, internal/cmd/templates.go:41-519. -/
def Command.run (s : System) (r : Runner) (args : List Str) (f : Flags) : Command → Run Unit
  | .all => allCmd (s.hostOf r) s.lint s.srt args f.disableFormat f.disableLint f.fix
  | .breakCheck => breakCheckCmd (s.hostOf r) (s.tools r) args f.gitBranch f.descriptorSetPath
  | .breakDescriptorSet => breakDescriptorSetCmd (s.hostOf r) (s.tools r) args f.outputPath
  | .cacheUpdate => cacheUpdateCmd s r args
  | .cacheDelete => cacheDeleteCmd s r
  | .compile => compileCmd (s.hostOf r) args f.dryRun
  | .create => Create.createCmd (createHandler s r f.pkg) (s.hostOf r) args
  | .descriptorSet =>
    descriptorSetCmd (s.hostOf r) (s.tools r) args f.includeImports f.includeSourceInfo f.outputPath f.tmp
  | .files => filesCmd (s.hostOf r) s.lint.order args
  | .format => formatCmd (s.hostOf r) s.lint.order s.srt args
      { overwrite := f.overwrite, diffMode := f.diffMode, lintMode := f.lintMode, fix := f.fix }
  | .generate => genCmd (s.hostOf r) args f.dryRun
  | .grpc => Grpc.grpcCmd (s.hostOf r) s.grpc args f.forGrpc
  | .inspectPackages => inspectPackagesCmd (s.hostOf r) (s.tools r) args
  | .inspectPackageDeps => inspectPackageDepsCmd (s.hostOf r) (s.tools r) args f.name
  | .inspectPackageImporters => inspectPackageImportersCmd (s.hostOf r) (s.tools r) args f.name
  | .configInit => initCmd (s.hostOf r) (s.tools r) args f.uncomment f.document
  | .lint => lintCmd (s.hostOf r) s.lint s.srt args {
      listAllLinters := f.listAllLinters
      listLinters := f.listLinters
      listAllLintGroups := f.listAllLintGroups
      listLintGroup := f.listLintGroup
      diffLintGroups := f.diffLintGroups
      generateIgnores := f.generateIgnores }
  | .version => versionCmd s r

/-! ## The program -/

/-- How the program ends: its exit code, or a panic. -/
inductive Exit where
  | code (n : Int)
  | crash
deriving DecidableEq

/-- `printAndGetErrorExitCode`, internal/cmd/cmd.go:149-157: the text printed and the exit code. An
error of the write is ignored. -/
def printAndGetErrorExitCode : RunErr → Str × Int
  | .exit code message => (if message ≠ [] then message ++ s%"\n" else [], code)
  | .other e => (if e ≠ [] then e ++ s%"\n" else [], 1)

/-- The end of a command with an error. -/
def failWith (e : RunErr) (w : World) : World × Exit :=
  let (text, code) := printAndGetErrorExitCode e
  ({ w with out := w.out ++ text }, .code code)

/-- `checkCmd`, internal/cmd/templates.go:576-585. -/
def checkCmd (s : System) (develMode : Bool) (c : Command) (args : List Str) (f : Flags) (w : World) :
    World × Exit :=
  match getRunner s.environ develMode f with
  | .error e => failWith (.other e) w
  | .ok r =>
    match c.run s r args f w with
    | (w, .ok ()) => (w, .code 0)
    | (w, .error e) => failWith e w
    | (w, .crash) => (w, .crash)

/-- What the libraries make of the arguments: something that only prints text (help), an error
after printing text, or a command with arguments and flag values in the order given. -/
inductive Parsed where
  | help (text : Str)
  | invalid (text : Str) (e : Err)
  | line (c : Command) (args : List Str) (values : List (Str × Value))

/-- What the libraries print for flags or arguments that a command does not take, and the error. -/
abbrev Usage := Command → List Str → List (Str × Value) → Str × Err

/-- `runRootCommand` with `Execute`, internal/cmd/cmd.go:86-94, and `checkOS`,
internal/cmd/cmd.go:147-154. -/
def run (s : System) (usage : Usage) (develMode : Bool) (p : Parsed) (w : World) : World × Exit :=
  if s.environ.goos ≠ s%"darwin" ∧ s.environ.goos ≠ s%"linux" then
    failWith (.other (s.environ.goos ++ s%" is not a supported operating system")) w
  else
    match p with
    | .help text => ({ w with out := w.out ++ text }, .code 0)
    | .invalid text e => failWith (.other e) { w with out := w.out ++ text }
    | .line c args values =>
      match c.parse values initial with
      | some f =>
        if c.takes args.length then checkCmd s develMode c args f w
        else
          let (text, e) := usage c args values
          failWith (.other e) { w with out := w.out ++ text }
      | none =>
        let (text, e) := usage c args values
        failWith (.other e) { w with out := w.out ++ text }

end Verif.Cmd
