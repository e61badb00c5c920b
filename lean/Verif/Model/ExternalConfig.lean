import Verif.Go.JsonDecode

/-!
# The external configuration of internal/settings, and how it is read from JSON
-/

namespace Verif.Settings

open Verif Json

/-- A plugin of `ExternalConfig`, internal/settings/settings.go:336-345. -/
structure ExternalPlugin where
  name : Str := []
  type : Str := []
  flags : Str := []
  output : Str := []
  path : Str := []
  fileSuffix : Str := []
  includeImports : Bool := false
  includeSourceInfo : Bool := false

/-- `ExternalConfig`, internal/settings/settings.go:294-347, with the nested structures
written out. -/
structure ExternalConfig where
  excludes : List Str := []
  allowUnusedImports : Bool := false
  version : Str := []
  includes : List Str := []
  createPackages : List (Str × Str) := []
  lintGroup : Str := []
  ignores : List (Str × List Str) := []
  noDefault : Bool := false
  add : List Str := []
  remove : List Str := []
  fileHeaderPath : Str := []
  fileHeaderContent : Str := []
  fileHeaderIsCommented : Bool := false
  javaPackagePrefix : Str := []
  allowSuppression : Bool := false
  includeBeta : Bool := false
  allowBetaDeps : Bool := false
  importPath : Str := []
  extraModifiers : GoMap Str Str := []
  plugins : List ExternalPlugin := []

/-! ## The tags of the fields -/

/-- A field: how its value is stored into the struct around it. -/
def fieldStore (store : Store β) (get : α → β) (set : β → α → α) : Store α := fun d a =>
  match store d (get a) with
  | .error e => .error e
  | .ok b => .ok (set b a)

/-- The fields of `protoc`, internal/settings/settings.go:297-299. -/
def protocFields : List (Str × Store ExternalConfig) := [
  (s%"allow_unused_imports", fieldStore storeBool (·.allowUnusedImports) fun v c => { c with allowUnusedImports := v }),
  (s%"version", fieldStore storeString (·.version) fun v c => { c with version := v }),
  (s%"includes", fieldStore (storeList storeString []) (·.includes) fun v c => { c with includes := v })]

/-- The fields of a package of `create`, internal/settings/settings.go:303-304. -/
def packageFields : List (Str × Store (Str × Str)) := [
  (s%"directory", fieldStore storeString (·.1) fun v p => (v, p.2)),
  (s%"name", fieldStore storeString (·.2) fun v p => (p.1, v))]

/-- The fields of `create`, internal/settings/settings.go:301-306. -/
def createFields : List (Str × Store ExternalConfig) := [
  (s%"packages", fieldStore (storeList (storeStruct packageFields) ([], [])) (·.createPackages)
    fun v c => { c with createPackages := v })]

/-- The fields of an entry of `ignores`, internal/settings/settings.go:310-311. -/
def ignoreFields : List (Str × Store (Str × List Str)) := [
  (s%"id", fieldStore storeString (·.1) fun v p => (v, p.2)),
  (s%"files", fieldStore (storeList storeString []) (·.2) fun v p => (p.1, v))]

/-- The fields of `rules`, internal/settings/settings.go:313-317. -/
def ruleFields : List (Str × Store ExternalConfig) := [
  (s%"no_default", fieldStore storeBool (·.noDefault) fun v c => { c with noDefault := v }),
  (s%"add", fieldStore (storeList storeString []) (·.add) fun v c => { c with add := v }),
  (s%"remove", fieldStore (storeList storeString []) (·.remove) fun v c => { c with remove := v })]

/-- The fields of `file_header`, internal/settings/settings.go:318-322. -/
def fileHeaderFields : List (Str × Store ExternalConfig) := [
  (s%"path", fieldStore storeString (·.fileHeaderPath) fun v c => { c with fileHeaderPath := v }),
  (s%"content", fieldStore storeString (·.fileHeaderContent) fun v c => { c with fileHeaderContent := v }),
  (s%"is_commented", fieldStore storeBool (·.fileHeaderIsCommented) fun v c => { c with fileHeaderIsCommented := v })]

/-- The fields of `lint`, internal/settings/settings.go:307-326. -/
def lintFields : List (Str × Store ExternalConfig) := [
  (s%"group", fieldStore storeString (·.lintGroup) fun v c => { c with lintGroup := v }),
  (s%"ignores", fieldStore (storeList (storeStruct ignoreFields) ([], [])) (·.ignores)
    fun v c => { c with ignores := v }),
  (s%"rules", storeStruct ruleFields),
  (s%"file_header", storeStruct fileHeaderFields),
  (s%"java_package_prefix", fieldStore storeString (·.javaPackagePrefix) fun v c => { c with javaPackagePrefix := v }),
  (s%"allow_suppression", fieldStore storeBool (·.allowSuppression) fun v c => { c with allowSuppression := v })]

/-- The fields of `break`, internal/settings/settings.go:327-330. -/
def breakFields : List (Str × Store ExternalConfig) := [
  (s%"include_beta", fieldStore storeBool (·.includeBeta) fun v c => { c with includeBeta := v }),
  (s%"allow_beta_deps", fieldStore storeBool (·.allowBetaDeps) fun v c => { c with allowBetaDeps := v })]

/-- The fields of `go_options`, internal/settings/settings.go:332-335. -/
def goOptionFields : List (Str × Store ExternalConfig) := [
  (s%"import_path", fieldStore storeString (·.importPath) fun v c => { c with importPath := v }),
  (s%"extra_modifiers", fieldStore storeMap (·.extraModifiers) fun v c => { c with extraModifiers := v })]

/-- The fields of a plugin, internal/settings/settings.go:336-345. -/
def pluginFields : List (Str × Store ExternalPlugin) := [
  (s%"name", fieldStore storeString (·.name) fun v p => { p with name := v }),
  (s%"type", fieldStore storeString (·.type) fun v p => { p with type := v }),
  (s%"flags", fieldStore storeString (·.flags) fun v p => { p with flags := v }),
  (s%"output", fieldStore storeString (·.output) fun v p => { p with output := v }),
  (s%"path", fieldStore storeString (·.path) fun v p => { p with path := v }),
  (s%"file_suffix", fieldStore storeString (·.fileSuffix) fun v p => { p with fileSuffix := v }),
  (s%"include_imports", fieldStore storeBool (·.includeImports) fun v p => { p with includeImports := v }),
  (s%"include_source_info", fieldStore storeBool (·.includeSourceInfo) fun v p => { p with includeSourceInfo := v })]

/-- The fields of `generate`, internal/settings/settings.go:331-346. -/
def generateFields : List (Str × Store ExternalConfig) := [
  (s%"go_options", storeStruct goOptionFields),
  (s%"plugins", fieldStore (storeList (storeStruct pluginFields) {}) (·.plugins) fun v c => { c with plugins := v })]

/-- The fields of `ExternalConfig`, internal/settings/settings.go:294-347. -/
def configFields : List (Str × Store ExternalConfig) := [
  (s%"excludes", fieldStore (storeList storeString []) (·.excludes) fun v c => { c with excludes := v }),
  (s%"protoc", storeStruct protocFields),
  (s%"create", storeStruct createFields),
  (s%"lint", storeStruct lintFields),
  (s%"break", storeStruct breakFields),
  (s%"generate", storeStruct generateFields)]

/-- `jsonUnmarshalStrict` of an empty `ExternalConfig`, internal/settings/config_provider.go:430-434. -/
def jsonUnmarshalStrict (text : Str) : Except Err ExternalConfig :=
  Json.decode (storeStruct configFields) text {}

end Verif.Settings
