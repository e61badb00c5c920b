import Verif.Model.Create
import Verif.Spec.Layout
import Verif.Spec.Path

/-!
# Specification: creating files
-/

namespace Verif.Spec

open Verif Exec Proto

/-- The file a path names. -/
def located (host : Host) (path : Str) : Str := File.absClean host.wd path

/-- No file may be created there: the path is empty, there is no directory for it, or there is
a file with content. -/
def Unfit (host : Host) (disk : Disk) (path : Str) : Prop :=
  path = [] ∨ host.stat (Path.dir path) ≠ .ok .dir ∨
    ∃ data, disk (located host path) = some data ∧ data ≠ []

/-- `p` is reached from the directory `d` through the directories `names`. -/
def Through (p d : Str) (names : List Str) : Prop :=
  ∃ cs, Components (cs ++ names) ∧ d = absPath cs ∧ p = absPath (cs ++ names)

/-- No directory with a base package contains `d`. -/
def Unmapped (bases : GoMap Str Str) (d : Str) : Prop :=
  ∀ k base, GoMap.get? bases k = some base → ¬ Within d k

/-- The package for new files in the directory `d`, by docs/create.md. `bases` maps directories
to base packages, `root` is the directory of the configuration. -/
inductive PackageFor (bases : GoMap Str Str) (root d default : Str) : Str → Prop
  /-- The base package of the innermost directory that contains `d`, and the names from there. -/
  | mapped {k base names} : GoMap.get? bases k = some base → Through d k names →
      (∀ k' base', GoMap.get? bases k' = some base' → Within d k' → Within k k') →
      PackageFor bases root d default (Str.join s%"." (base :: names))
  /-- The names from the directory of the configuration. -/
  | unmapped {names} : Unmapped bases d → Through d root names → names ≠ [] →
      PackageFor bases root d default (Str.join s%"." names)
  /-- In the directory of the configuration. -/
  | top : Unmapped bases d → d = root → PackageFor bases root d default default

/-- An option with a value in quotes. -/
def quoted (name value : Str) : Opt := { name := name, constant := .str value }

/-- The options of a new file: those of `uber2`, or those of the other groups. -/
def newOptions (uber2 : Bool) (path package javaPrefix : Str) : List Opt :=
  if uber2 then
    [quoted s%"csharp_namespace" (Protostrs.csharpNamespace package),
     quoted s%"go_package" (Protostrs.goPackageV2 package),
     { name := s%"java_multiple_files", constant := .plain s%"true" },
     quoted s%"java_outer_classname" (Protostrs.javaOuterClassname path),
     quoted s%"java_package" (Protostrs.javaPackagePrefixOverride package javaPrefix),
     quoted s%"objc_class_prefix" (Protostrs.objcClassPrefix package),
     quoted s%"php_namespace" (Protostrs.phpNamespace package)]
  else
    [quoted s%"go_package" (Protostrs.goPackage package),
     { name := s%"java_multiple_files", constant := .plain s%"true" },
     quoted s%"java_outer_classname" (Protostrs.javaOuterClassname path),
     quoted s%"java_package" (Protostrs.javaPackagePrefixOverride package javaPrefix)]

/-- The declarations of a new file below the comments of the header. -/
def newFile (comments : List Comment) (uber2 : Bool) (path package javaPrefix : Str) : List Element :=
  comments.map .comment ++ .syntax { value := s%"proto3" } :: .package { name := package } ::
    (newOptions uber2 path package javaPrefix).map .option

/-- The text of a new file. It has no newline at the end. -/
def newText (header : Str) (uber2 : Bool) (path package javaPrefix : Str) : Str :=
  (if header = [] then [] else header ++ s%"\n\n") ++
    Str.join s%"\n" ([s%"syntax = \"proto3\";", [], s%"package " ++ package ++ s%";", []] ++
      (newOptions uber2 path package javaPrefix).map fun o =>
        s%"option " ++ o.name ++ s%" = " ++ o.constant.sourceRepresentation ++ s%";")

end Verif.Spec
