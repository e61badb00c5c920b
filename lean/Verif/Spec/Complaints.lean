import Verif.Spec.Settings
import Verif.Spec.Discovery

/-!
# Specification: what is wrong with a refused configuration, in words
-/

namespace Verif.Spec

open Verif Str Path Settings

/-- The strings between brackets, separated by spaces. -/
def inBrackets (l : List Str) : Str := s%"[" ++ join s%" " l ++ s%"]"

/-- `Complaint h develMode e d n text`: the configuration `e` of the directory `d` has a fault,
and `text` is what the user is to be told of it. The number `n` is the group the fault belongs
to: excludes, plugins, packages, file header, suppression, names and types of plugins, and
rules. -/
inductive Complaint (h : Host) (develMode : Bool) (e : ExternalConfig) (d : Str) : Nat → Str → Prop
  | excludesItself {x} : x ∈ e.excludes → x ≠ [] → locate d x = d →
      Complaint h develMode e d 0 (s%"cannot exclude directory of config file: " ++ d)
  | excludesOutside {x} : x ∈ e.excludes → x ≠ [] → (∀ t, locate d x ≠ d ++ t) →
      Complaint h develMode e d 0
        (s%"cannot exclude directory outside of config file directory " ++ d ++ s%": " ++ locate d x)
  | pluginType {p} : p ∈ e.plugins → (∀ t, ¬ PluginType p.type t) →
      Complaint h develMode e d 1 (s%"could not parse " ++ p.type ++ s%" to a GenPluginType")
  | pluginOutput {p} : p ∈ e.plugins → p.output = [] →
      Complaint h develMode e d 1 (s%"output path required for plugin " ++ p.name)
  | pluginSuffix {p rest} : p ∈ e.plugins → p.fileSuffix = '.' :: rest →
      Complaint h develMode e d 1
        (s%"file_suffix begins with '.' but should not include the '.': " ++ p.fileSuffix)
  | pluginImports {p} : p ∈ e.plugins → p.name ≠ s%"descriptor_set" → p.includeImports = true →
      Complaint h develMode e d 1
        (s%"include_imports is only valid for the descriptor_set plugin but set on " ++ quote p.name)
  | pluginSourceInfo {p} : p ∈ e.plugins → p.name ≠ s%"descriptor_set" → p.includeSourceInfo = true →
      Complaint h develMode e d 1
        (s%"include_source_info is only valid for the descriptor_set plugin but set on " ++ quote p.name)
  | packageNoDirectory {x} : x ∈ e.createPackages → x.1 = [] →
      Complaint h develMode e d 2 (s%"directory for create package is empty")
  | packageNoName {x} : x ∈ e.createPackages → x.2 = [] →
      Complaint h develMode e d 2 (s%"name for create package is empty")
  | packageAbsolute {x} : x ∈ e.createPackages → isAbs x.1 = true →
      Complaint h develMode e d 2 (s%"directory for create package must be relative: " ++ x.1)
  | headerTwice : e.fileHeaderPath ≠ [] → e.fileHeaderContent ≠ [] →
      Complaint h develMode e d 3 (s%"must only specify either file header path or content")
  | headerAbsolute : isAbs e.fileHeaderPath = true →
      Complaint h develMode e d 3 (s%"path for file header must be relative: " ++ e.fileHeaderPath)
  | headerUnreadable {err} : e.fileHeaderPath ≠ [] →
      h.readFile (joinPath [d, e.fileHeaderPath]) = .error err → Complaint h develMode e d 3 err
  | headerEmpty {t} : HeaderText h e d (some t) → e.fileHeaderIsCommented = true →
      (∀ c ∈ t, isSpace c = true) →
      Complaint h develMode e d 3 (s%"file header path or content specified but result was empty file header")
  | suppression : e.allowSuppression = true → develMode = false →
      Complaint h develMode e d 4
        (s%"allow_suppression is not allowed outside of internal prototool tests")
  | pluginPrefix {p rest} : p ∈ e.plugins → p.name = s%"protoc-gen-" ++ rest →
      Complaint h develMode e d 5
        (s%"plugin name provided was " ++ p.name ++ s%", do not include the protoc-gen- prefix")
  | pluginImportPath {p} : p ∈ e.plugins → toLower p.type = s%"go" ∨ toLower p.type = s%"gogo" →
      e.importPath = [] →
      Complaint h develMode e d 5 (s%"go plugin " ++ p.name ++ s%" specified but no import path provided")
  | rules {ids} : ids ≠ [] → StrictlyIncreasing ids →
      (∀ a, a ∈ ids ↔ a ≠ [] ∧ (∃ x ∈ e.add, toUpper x = a) ∧ ∃ x ∈ e.remove, toUpper x = a) →
      Complaint h develMode e d 6
        (s%"config had intersection of " ++ inBrackets ids ++ s%" between lint_include and lint_exclude")

/-- The text for a directory with two configuration files. -/
def twoFilesText (ds : List Str) : Str :=
  s%"multiple configuration files in the same directory: " ++
    inBrackets [absPath (ds ++ [s%"prototool.yaml"]), absPath (ds ++ [s%"prototool.json"])]

/-- `Unread h p text`: the configuration file `p` can not be read or understood, and `text` is
what is said about it. -/
inductive Unread (h : Host) (p : Str) : Str → Prop
  | file {err} : h.readFile p = .error err → Unread h p err
  | json {data q err} : h.readFile p = .ok data → data ≠ [] → p = q ++ s%".json" →
      jsonUnmarshalStrict data = .error err → Unread h p err
  | yaml {data q err} : h.readFile p = .ok data → data ≠ [] → p = q ++ s%".yaml" →
      h.parseYAML data = .error err → Unread h p err

/-- `Content h p e`: the configuration file `p` says `e`. -/
inductive Content (h : Host) (p : Str) : ExternalConfig → Prop
  | empty : h.readFile p = .ok [] → Content h p {}
  | json {data q e} : h.readFile p = .ok data → data ≠ [] → p = q ++ s%".json" →
      jsonUnmarshalStrict data = .ok e → Content h p e
  | yaml {data q e} : h.readFile p = .ok data → data ≠ [] → p = q ++ s%".yaml" →
      h.parseYAML data = .ok e → Content h p e

end Verif.Spec
