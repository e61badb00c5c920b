import Verif.Spec.JsonText
import Verif.Spec.List
import Verif.Model.ExternalConfig

/-!
# What a configuration in JSON means

The keys are those documented in internal/settings/settings.go:294-347 and, with examples, in
etc/config/example/prototool.yaml.
-/

namespace Verif.Spec

open Verif Str
open Verif.Json (Doc)

/-! ## Which values may stand where -/

/-- How names are compared, and whether one may occur twice in an object. -/
structure Naming where
  same : Str → Str → Prop
  once : Prop

/-- Names as documented, each at most once. -/
def asDocumented : Naming := ⟨Eq, True⟩

/-- A letter in lower case, or the same letter otherwise: in upper case, or one of the two characters
that Unicode takes for a `k` and an `s`. -/
def SameLetter (a b : Char) : Prop :=
  b = a ∨ b = upperChar a ∨ (a = 'k' ∧ b.toNat = 0x212A) ∨ (a = 's' ∧ b.toNat = 0x17F)

/-- Names in any case, as often as one likes. -/
def anyCase : Naming := ⟨Pointwise SameLetter, False⟩

/-- A kind of values. `null` is like a missing value. -/
abbrev Kind := Doc → Prop

/-- A text. -/
def aText : Kind := fun d => d = .null ∨ ∃ s, d = .string s

/-- A flag. -/
def aFlag : Kind := fun d => d = .null ∨ ∃ b, d = .bool b

/-- A list. -/
def aList (item : Kind) : Kind := fun d => d = .null ∨ ∃ ds, d = .array ds ∧ ∀ x ∈ ds, item x

/-- An object with texts under arbitrary names. -/
def aTable (n : Naming) : Kind := fun d =>
  d = .null ∨ ∃ ms, d = .object ms ∧ (n.once → (ms.map (·.1)).Nodup) ∧ ∀ m ∈ ms, aText m.2

/-- An object with some of the settings. -/
def aGroup (n : Naming) (settings : List (Str × Kind)) : Kind := fun d =>
  d = .null ∨ ∃ ms, d = .object ms ∧ (n.once → (ms.map (·.1)).Nodup) ∧
    ∀ m ∈ ms, ∃ s ∈ settings, n.same s.1 m.1 ∧ s.2 m.2

/-- A package for `create`. -/
def packageKind (n : Naming) : Kind := aGroup n [(s%"directory", aText), (s%"name", aText)]

/-- Files for which a rule is ignored. -/
def ignoreKind (n : Naming) : Kind := aGroup n [(s%"id", aText), (s%"files", aList aText)]

/-- A plugin. -/
def pluginKind (n : Naming) : Kind := aGroup n [
  (s%"name", aText), (s%"type", aText), (s%"flags", aText), (s%"output", aText), (s%"path", aText),
  (s%"file_suffix", aText), (s%"include_imports", aFlag), (s%"include_source_info", aFlag)]

/-- The settings for linting. -/
def lintKind (n : Naming) : Kind := aGroup n [
  (s%"group", aText),
  (s%"ignores", aList (ignoreKind n)),
  (s%"rules", aGroup n [(s%"no_default", aFlag), (s%"add", aList aText), (s%"remove", aList aText)]),
  (s%"file_header", aGroup n [(s%"path", aText), (s%"content", aText), (s%"is_commented", aFlag)]),
  (s%"java_package_prefix", aText),
  (s%"allow_suppression", aFlag)]

/-- The settings. -/
def configKind (n : Naming) : Kind := aGroup n [
  (s%"excludes", aList aText),
  (s%"protoc", aGroup n [(s%"allow_unused_imports", aFlag), (s%"version", aText), (s%"includes", aList aText)]),
  (s%"create", aGroup n [(s%"packages", aList (packageKind n))]),
  (s%"lint", lintKind n),
  (s%"break", aGroup n [(s%"include_beta", aFlag), (s%"allow_beta_deps", aFlag)]),
  (s%"generate", aGroup n [
    (s%"go_options", aGroup n [(s%"import_path", aText), (s%"extra_modifiers", aTable n)]),
    (s%"plugins", aList (pluginKind n))])]

/-! ## What they mean -/

/-- The member of that name; `null` if there is none. -/
def member (d : Doc) (name : Str) : Doc :=
  match d with
  | .object ms => (ms.lookup name).getD .null
  | _ => .null

/-- The member below these names. -/
def below (d : Doc) (path : List Str) : Doc := path.foldl member d

/-- The text of a value. -/
def stringOf : Doc → Str
  | .string s => s
  | _ => []

/-- The truth of a value. -/
def flagOf : Doc → Bool
  | .bool b => b
  | _ => false

/-- The items of a value. -/
def itemsOf (f : Doc → α) : Doc → List α
  | .array ds => ds.map f
  | _ => []

/-- The entries of a value. -/
def entriesOf : Doc → List (Str × Str)
  | .object ms => ms.map fun m => (m.1, stringOf m.2)
  | _ => []

/-- The settings of a plugin. -/
def pluginOf (d : Doc) : Settings.ExternalPlugin where
  name := stringOf (member d s%"name")
  type := stringOf (member d s%"type")
  flags := stringOf (member d s%"flags")
  output := stringOf (member d s%"output")
  path := stringOf (member d s%"path")
  fileSuffix := stringOf (member d s%"file_suffix")
  includeImports := flagOf (member d s%"include_imports")
  includeSourceInfo := flagOf (member d s%"include_source_info")

/-- The settings of a configuration. -/
def configOf (d : Doc) : Settings.ExternalConfig where
  excludes := itemsOf stringOf (below d [s%"excludes"])
  allowUnusedImports := flagOf (below d [s%"protoc", s%"allow_unused_imports"])
  version := stringOf (below d [s%"protoc", s%"version"])
  includes := itemsOf stringOf (below d [s%"protoc", s%"includes"])
  createPackages := itemsOf (fun p => (stringOf (member p s%"directory"), stringOf (member p s%"name")))
    (below d [s%"create", s%"packages"])
  lintGroup := stringOf (below d [s%"lint", s%"group"])
  ignores := itemsOf (fun i => (stringOf (member i s%"id"), itemsOf stringOf (member i s%"files")))
    (below d [s%"lint", s%"ignores"])
  noDefault := flagOf (below d [s%"lint", s%"rules", s%"no_default"])
  add := itemsOf stringOf (below d [s%"lint", s%"rules", s%"add"])
  remove := itemsOf stringOf (below d [s%"lint", s%"rules", s%"remove"])
  fileHeaderPath := stringOf (below d [s%"lint", s%"file_header", s%"path"])
  fileHeaderContent := stringOf (below d [s%"lint", s%"file_header", s%"content"])
  fileHeaderIsCommented := flagOf (below d [s%"lint", s%"file_header", s%"is_commented"])
  javaPackagePrefix := stringOf (below d [s%"lint", s%"java_package_prefix"])
  allowSuppression := flagOf (below d [s%"lint", s%"allow_suppression"])
  includeBeta := flagOf (below d [s%"break", s%"include_beta"])
  allowBetaDeps := flagOf (below d [s%"break", s%"allow_beta_deps"])
  importPath := stringOf (below d [s%"generate", s%"go_options", s%"import_path"])
  extraModifiers := entriesOf (below d [s%"generate", s%"go_options", s%"extra_modifiers"])
  plugins := itemsOf pluginOf (below d [s%"generate", s%"plugins"])

end Verif.Spec
