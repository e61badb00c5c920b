import Verif.Model.LintConfig
import Verif.Spec.SameInDir

/-!
# Specification: the file options of a lint group

What the rules about file options of the groups `uber1` and `uber2` ask of a file with a package,
taken together.
-/

namespace Verif.Spec

open Verif Proto Lint Str

/-- The file declares the option once, with the value. -/
def Declares (d : FileDescriptor) (name value : Str) : Prop :=
  ∃ o, optionsNamed name d = [o] ∧ o.constant.source = value

/-- The options `uber1` requires of a file in the package. -/
structure Options1 (d : FileDescriptor) (package : Str) : Prop where
  filename : d.filename ≠ []
  inPackage : (packages d).map (·.name) = [package]
  go : Declares d s%"go_package" (Protostrs.goPackage package)
  multiple : Declares d s%"java_multiple_files" s%"true"
  outer : Declares d s%"java_outer_classname" (Protostrs.javaOuterClassname d.filename)
  java : Declares d s%"java_package" (Protostrs.javaPackage package)

/-- The options `uber2` requires of a file in the package. -/
structure Options2 (d : FileDescriptor) (package : Str) : Prop where
  filename : d.filename ≠ []
  inPackage : (packages d).map (·.name) = [package]
  csharp : Declares d s%"csharp_namespace" (Protostrs.csharpNamespace package)
  go : Declares d s%"go_package" (Protostrs.goPackageV2 package)
  multiple : Declares d s%"java_multiple_files" s%"true"
  outer : Declares d s%"java_outer_classname" (Protostrs.javaOuterClassname d.filename)
  java : Declares d s%"java_package"
    (Protostrs.javaPackagePrefixOverride package d.config.lint.javaPackagePrefix)
  objc : Declares d s%"objc_class_prefix" (Protostrs.objcClassPrefix package)
  php : Declares d s%"php_namespace" (Protostrs.phpNamespace package)

/-- The rules of `uber1` about the options of one file. -/
def optionRules1 : List Linter :=
  [fileOptionsEqualGoPackagePbSuffixLinter, fileOptionsEqualJavaMultipleFilesTrueLinter,
   fileOptionsEqualJavaOuterClassnameProtoSuffixLinter, fileOptionsEqualJavaPackageComPrefixLinter,
   fileOptionsGoPackageNotLongFormLinter, fileOptionsRequireGoPackageLinter,
   fileOptionsRequireJavaMultipleFilesLinter, fileOptionsRequireJavaOuterClassnameLinter,
   fileOptionsRequireJavaPackageLinter]

/-- The rules of `uber1` about the options of the files of a directory. -/
def dirOptionRules1 (env : Env) : List Linter :=
  [fileOptionsGoPackageSameInDirLinter env, fileOptionsJavaMultipleFilesSameInDirLinter env,
   fileOptionsJavaPackageSameInDirLinter env]

/-- The rules of `uber2` about the options of one file. -/
def optionRules2 : List Linter :=
  [fileOptionsEqualCSharpNamespaceCapitalizedLinter, fileOptionsEqualGoPackageV2SuffixLinter,
   fileOptionsEqualJavaMultipleFilesTrueLinter, fileOptionsEqualJavaOuterClassnameProtoSuffixLinter,
   fileOptionsEqualJavaPackagePrefixLinter, fileOptionsEqualOBJCClassPrefixAbbrLinter,
   fileOptionsEqualPHPNamespaceCapitalizedLinter, fileOptionsGoPackageNotLongFormLinter,
   fileOptionsRequireCSharpNamespaceLinter, fileOptionsRequireGoPackageLinter,
   fileOptionsRequireJavaMultipleFilesLinter, fileOptionsRequireJavaOuterClassnameLinter,
   fileOptionsRequireJavaPackageLinter, fileOptionsRequireOBJCClassPrefixLinter,
   fileOptionsRequirePHPNamespaceLinter]

/-- The rules of `uber2` about the options of the files of a directory. -/
def dirOptionRules2 (env : Env) : List Linter :=
  [fileOptionsCSharpNamespaceSameInDirLinter env, fileOptionsGoPackageSameInDirLinter env,
   fileOptionsJavaMultipleFilesSameInDirLinter env, fileOptionsJavaPackageSameInDirLinter env,
   fileOptionsOBJCClassPrefixSameInDirLinter env, fileOptionsPHPNamespaceSameInDirLinter env]

/-- The rule is about file options, by its name. -/
def aboutOptions (l : Linter) : Bool := hasPrefix l.id s%"FILE_OPTIONS_"

end Verif.Spec
