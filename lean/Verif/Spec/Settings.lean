import Verif.Spec.Path
import Verif.Spec.Strs
import Verif.Spec.List
import Verif.Model.Settings

/-!
# Specification: which configurations are accepted
-/

namespace Verif.Spec

open Verif Str Path Settings

/-- The place a configured path refers to: itself if absolute, otherwise relative to the
directory of the configuration. -/
def locate (dirPath p : Str) : Str := if isAbs p then clean p else joinPath [dirPath, p]

/-- The header text that the configuration asks for, if any: the content of the file or
the content given directly. -/
inductive HeaderText (h : Host) (e : ExternalConfig) (dirPath : Str) : Option Str → Prop
  | none : e.fileHeaderPath = [] → e.fileHeaderContent = [] → HeaderText h e dirPath none
  | content : e.fileHeaderPath = [] → e.fileHeaderContent ≠ [] →
      HeaderText h e dirPath (some e.fileHeaderContent)
  | file {text} : e.fileHeaderPath ≠ [] → e.fileHeaderContent = [] → isAbs e.fileHeaderPath = false →
      h.readFile (joinPath [dirPath, e.fileHeaderPath]) = .ok text → HeaderText h e dirPath (some text)

/-- A plugin type as written in the configuration. -/
def PluginType (s : Str) (t : GenPluginType) : Prop :=
  (t = .none ∧ s = []) ∨ (t = .go ∧ toLower s = s%"go") ∨ (t = .gogo ∧ toLower s = s%"gogo")

/-- What is required of a plugin. -/
structure PluginOK (importPath : Str) (p : ExternalPlugin) : Prop where
  type : ∃ t, PluginType p.type t ∧ (t ≠ .none → importPath ≠ [])
  output : p.output ≠ []
  fileSuffix : ∀ rest, p.fileSuffix ≠ '.' :: rest
  descriptorSet : p.includeImports = true ∨ p.includeSourceInfo = true → p.name = s%"descriptor_set"
  name : ∀ rest, p.name ≠ s%"protoc-gen-" ++ rest

/-- What is required of a configuration in the directory `dirPath`. The requirement on
excludes is the one of the code, a comparison of strings; see `C50_sibling_excluded`. -/
structure Acceptable (h : Host) (develMode : Bool) (e : ExternalConfig) (dirPath : Str) : Prop where
  excludes : ∀ x ∈ e.excludes, x ≠ [] → ∃ t, t ≠ [] ∧ locate dirPath x = dirPath ++ t
  plugins : ∀ p ∈ e.plugins, PluginOK e.importPath p
  packages : ∀ x ∈ e.createPackages, x.1 ≠ [] ∧ isAbs x.1 = false ∧ x.2 ≠ []
  header : ∃ text, HeaderText h e dirPath text ∧
    (e.fileHeaderIsCommented = true → ∀ t, text = some t → ∃ c ∈ t, isSpace c = false)
  suppression : e.allowSuppression = true → develMode = true
  rules : ∀ a ∈ e.add, ∀ r ∈ e.remove, a ≠ [] → toUpper a ≠ toUpper r

/-- A plugin of the accepted configuration and the one it was made from. -/
structure PluginFrom (dirPath : Str) (p : ExternalPlugin) (g : GenPlugin) : Prop where
  name : g.name = p.name
  path : g.path = p.path
  flags : g.flags = p.flags
  type : PluginType p.type g.type
  output : g.outputPath.absPath = locate dirPath p.output
  fileSuffix : g.fileSuffix = p.fileSuffix
  includeImports : g.includeImports = p.includeImports
  includeSourceInfo : g.includeSourceInfo = p.includeSourceInfo

end Verif.Spec
