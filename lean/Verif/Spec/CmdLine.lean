import Verif.Spec.Cmd
import Verif.Spec.Exec
import Verif.Spec.Grpc

/-!
# What a command line says
-/

namespace Verif.Spec

open Verif Str Exec Cmd

/-- The last value given under a name. -/
def lastGiven (values : List (Str × Value)) (name : Str) : Option Value :=
  ((values.filter fun p => p.1 = name).getLast?).map fun p => p.2

/-- The texts that are meant if a flag is not given. -/
def defaultText (name : Str) : Str :=
  if name = s%"call-timeout" then s%"60s"
  else if name = s%"connect-timeout" then s%"10s"
  else if name = s%"error-format" then s%"filename:line:column:message"
  else if name = s%"walk-timeout" then s%"3s"
  else []

/-- The text a command line gives under a name. -/
def givenText (values : List (Str × Value)) (name : Str) : Str :=
  match lastGiven values name with
  | some (.str t) => t
  | _ => defaultText name

/-- Whether a command line switches something on. -/
def isOn (values : List (Str × Value)) (name : Str) : Bool :=
  match lastGiven values name with
  | some (.bool b) => b
  | _ => false

/-- The command has all the flags of the command line, with values of their types, and takes so many
arguments. -/
structure Fitting (c : Command) (args : List Str) (values : List (Str × Value)) : Prop where
  known : ∀ p ∈ values, p.1 ∈ flagNames c
  typed : Typed c values
  arguments : if c = .create then 1 ≤ args.length
    else if c = .cacheDelete ∨ c = .version then args = [] else args.length ≤ 1

/-- The settings that a command line and the environment make. -/
structure SettingsFor (e : Environ) (devel : Bool) (values : List (Str × Value)) (r : Runner) : Prop where
  workDirPath : e.getwd = .ok r.workDirPath
  develMode : r.develMode = devel
  cachePath : FlagOrVariable (givenText values s%"cache-path") (e.getenv s%"PROTOTOOL_CACHE_PATH") r.cachePath
  protocBinPath : FlagOrVariable (givenText values s%"protoc-bin-path")
    (e.getenv s%"PROTOTOOL_PROTOC_BIN_PATH") r.protocBinPath
  protocWKTPath : FlagOrVariable (givenText values s%"protoc-wkt-path")
    (e.getenv s%"PROTOTOOL_PROTOC_WKT_PATH") r.protocWKTPath
  protocURL : r.protocURL = givenText values s%"protoc-url"
  configData : r.configData = givenText values s%"config-data"
  errorFormat : r.errorFormat = givenText values s%"error-format"
  json : r.json = isOn values s%"json"
  walkTimeout : Duration e.parseDuration (givenText values s%"walk-timeout") r.walkTimeout

/-- A command line that the program runs, with these settings and this host: failures are printed in
the given format, relative to the working directory, and as JSON if that is switched on. -/
structure Invoked (s : System) (devel : Bool) (c : Command) (args : List Str)
    (values : List (Str × Value)) (r : Runner) (h : Exec.Host) : Prop where
  system : Supported s.environ.goos
  fitting : Fitting c args values
  settings : SettingsFor s.environ devel values r
  host : h = { s.host r with
    workDirPath := r.workDirPath
    errorFormat := givenText values s%"error-format"
    json := isOn values s%"json" }

/-- What the grpc command is asked for. -/
def grpcOf (values : List (Str × Value)) : Grpc.Flags where
  headers := allValues s%"header" values
  address := givenText values s%"address"
  method := givenText values s%"method"
  data := givenText values s%"data"
  stdin := isOn values s%"stdin"
  callTimeout := givenText values s%"call-timeout"
  connectTimeout := givenText values s%"connect-timeout"
  keepaliveTime := givenText values s%"keepalive-time"
  details := isOn values s%"details"
  tls := isOn values s%"tls"
  insecure := isOn values s%"insecure"
  cacert := givenText values s%"cacert"
  cert := givenText values s%"cert"
  key := givenText values s%"key"
  serverName := givenText values s%"server-name"

/-- What the format command is asked for. -/
def formatOf (values : List (Str × Value)) : FormatFlags where
  overwrite := isOn values s%"overwrite"
  diffMode := isOn values s%"diff"
  lintMode := isOn values s%"lint"
  fix := isOn values s%"fix"

/-- What the lint command is asked for. -/
def lintOf (values : List (Str × Value)) : LintFlags where
  listAllLinters := isOn values s%"list-all-linters"
  listLinters := isOn values s%"list-linters"
  listAllLintGroups := isOn values s%"list-all-lint-groups"
  listLintGroup := givenText values s%"list-lint-group"
  diffLintGroups := givenText values s%"diff-lint-groups"
  generateIgnores := isOn values s%"generate-ignores"

/-- The exit code for the end of a command. -/
def exitOf : Exec.Outcome Unit → Exit
  | .ok _ => .code 0
  | .error (.exit c _) => .code c
  | .error (.other _) => .code 1
  | .crash => .crash

/-- The message at the end of a command. -/
def lastWords : Exec.Outcome Unit → Str
  | .error (.exit _ m) => textLine m
  | .error (.other m) => textLine m
  | _ => []

end Verif.Spec
