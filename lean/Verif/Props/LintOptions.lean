import Verif.Proof.ReportsFile
import Verif.Spec.Sample
import Verif.Props.Derived

/-!
# C58: the rules about file options

`fileOptions` are the options of the file itself. Where an option is declared several times the
last declaration counts, as for protoc's own reading of the file. The values a package prescribes
are the subject of C60.
-/

namespace Verif.Props

open Verif Proto Spec Lint Str

/-- The declarations of the option. -/
def declared (name : Str) (d : FileDescriptor) : List Opt :=
  (fileOptions d).filter fun o => o.name = name

/-- The rules that require an option. -/
def requiring : List (Linter × Str) :=
  [(fileOptionsRequireCSharpNamespaceLinter, s%"csharp_namespace"),
   (fileOptionsRequireGoPackageLinter, s%"go_package"),
   (fileOptionsRequireJavaMultipleFilesLinter, s%"java_multiple_files"),
   (fileOptionsRequireJavaOuterClassnameLinter, s%"java_outer_classname"),
   (fileOptionsRequireJavaPackageLinter, s%"java_package"),
   (fileOptionsRequireOBJCClassPrefixLinter, s%"objc_class_prefix"),
   (fileOptionsRequirePHPNamespaceLinter, s%"php_namespace"),
   (fileOptionsRequireRubyPackageLinter, s%"ruby_package")]

/-- FILE_OPTIONS_REQUIRE_…: the file is reported if the option is not declared. -/
theorem C58_required : ∀ rule ∈ requiring, Reports rule.1 fun d =>
    if declared rule.2 d = [] then [{ filename := d.filename }] else [] := by
  have key : ∀ name id purpose : Str, Reports (newLinter id purpose (visitWith (fileOptionsRequire name) {})) fun d =>
      if declared name d = [] then [{ filename := d.filename }] else [] := by
    intro name id purpose
    have h := reports_require (purpose := purpose) name id
    have : (fun d : FileDescriptor => if declared name d = [] then [({ filename := d.filename } : Position)]
        else []) = fun d => if ∀ o ∈ fileOptions d, o.name ≠ name then [{ filename := d.filename }] else [] := by
      funext d
      have hd : declared name d = [] ↔ ∀ o ∈ fileOptions d, o.name ≠ name := by
        unfold declared
        rw [List.filter_eq_nil_iff]
        simp
      simp only [hd]
    rw [this]
    exact h
  intro rule hr
  simp only [requiring, List.mem_cons, List.not_mem_nil, or_false] at hr
  rcases hr with rfl | rfl | rfl | rfl | rfl | rfl | rfl | rfl <;> exact key _ _ _

/-- The rules that forbid an option. -/
def forbidding : List (Linter × Str) :=
  [(fileOptionsUnsetJavaMultipleFilesLinter, s%"java_multiple_files"),
   (fileOptionsUnsetJavaOuterClassnameLinter, s%"java_outer_classname")]

/-- FILE_OPTIONS_UNSET_…: the last declaration of the option is reported. -/
theorem C58_unset : ∀ rule ∈ forbidding, Reports rule.1 fun d =>
    (declared rule.2 d).getLast?.toList.map (·.position) := by
  have key : ∀ name id purpose : Str, Reports (newLinter id purpose (visitWith (fileOptionsUnset name) {})) fun d =>
      (declared name d).getLast?.toList.map (·.position) := by
    intro name id purpose
    have h := reports_unset (purpose := purpose) name id
    have : (fun d : FileDescriptor => (declared name d).getLast?.toList.map (·.position)) = fun d =>
        match ((fileOptions d).filter fun o => o.name = name).getLast? with
        | some o => [o.position]
        | none => [] := by
      funext d
      unfold declared
      cases ((fileOptions d).filter fun o => o.name = name).getLast? <;> rfl
    rw [this]
    exact h
  intro rule hr
  simp only [forbidding, List.mem_cons, List.not_mem_nil, or_false] at hr
  rcases hr with rfl | rfl <;> exact key _ _ _

/-- FILE_OPTIONS_GO_PACKAGE_NOT_LONG_FORM: the last `go_package` is reported if its value has a
semicolon. -/
theorem C58_go_package_not_long_form : Reports fileOptionsGoPackageNotLongFormLinter fun d =>
    ((declared s%"go_package" d).getLast?.toList.filter fun o => s%";" <:+: o.constant.source).map
      (·.position) := by
  have h := reports_notLongForm
  have : (fun d : FileDescriptor => ((declared s%"go_package" d).getLast?.toList.filter
        fun o => s%";" <:+: o.constant.source).map (·.position)) = fun d =>
      match ((fileOptions d).filter fun o => o.name = s%"go_package").getLast? with
      | some o => if s%";" <:+: o.constant.source then [o.position] else []
      | none => [] := by
    funext d
    unfold declared
    cases ((fileOptions d).filter fun o => o.name = s%"go_package").getLast? with
    | none => rfl
    | some o => by_cases hb : s%";" <:+: o.constant.source <;> simp [hb]
  rw [this]
  exact h

/-- The rules that prescribe the value of an option, with the value for a file with a given
package. -/
def prescribing : List (Linter × Str × (FileDescriptor → Str → Str)) :=
  [(fileOptionsEqualCSharpNamespaceCapitalizedLinter, s%"csharp_namespace",
      fun _ => Protostrs.csharpNamespace),
   (fileOptionsEqualGoPackageV2SuffixLinter, s%"go_package", fun _ => Protostrs.goPackageV2),
   (fileOptionsEqualGoPackagePbSuffixLinter, s%"go_package", fun _ => Protostrs.goPackage),
   (fileOptionsEqualJavaMultipleFilesTrueLinter, s%"java_multiple_files", fun _ _ => s%"true"),
   (fileOptionsEqualJavaOuterClassnameProtoSuffixLinter, s%"java_outer_classname",
      fun d _ => Protostrs.javaOuterClassname d.filename),
   (fileOptionsEqualJavaPackageComPrefixLinter, s%"java_package", fun _ => Protostrs.javaPackage),
   (fileOptionsEqualJavaPackagePrefixLinter, s%"java_package", fun d pkg =>
      Protostrs.javaPackagePrefixOverride pkg d.config.lint.javaPackagePrefix),
   (fileOptionsEqualOBJCClassPrefixAbbrLinter, s%"objc_class_prefix",
      fun _ => Protostrs.objcClassPrefix),
   (fileOptionsEqualPHPNamespaceCapitalizedLinter, s%"php_namespace",
      fun _ => Protostrs.phpNamespace)]

/-- FILE_OPTIONS_EQUAL_…: in a file with a package the last declaration of the option is reported
if it does not have the prescribed value. A file without a package is never reported, nor is one
without the option. -/
theorem C58_prescribed : ∀ rule ∈ prescribing,
    ReportsOn (fun d => d.filename ≠ []) rule.1 fun d =>
      match (packages d).getLast? with
      | none => []
      | some p => ((declared rule.2.1 d).getLast?.toList.filter fun o =>
          o.constant.source ≠ rule.2.2 d p.name).map (·.position) := by
  have key : ∀ (name id purpose : Str) (value : FileDescriptor → Str → Str),
      ReportsOn (fun d => d.filename ≠ []) (newLinter id purpose (visitWith (fileOptionsEqual name
        fun d p => value d p.name) {})) fun d =>
      match (packages d).getLast? with
      | none => []
      | some p => ((declared name d).getLast?.toList.filter fun o =>
          o.constant.source ≠ value d p.name).map (·.position) := by
    intro name id purpose value
    have h := reports_equal (purpose := purpose) name id fun d p => value d p.name
    have : (fun d : FileDescriptor =>
        match (packages d).getLast? with
        | none => []
        | some p => ((declared name d).getLast?.toList.filter fun o =>
            o.constant.source ≠ value d p.name).map (·.position)) = fun d =>
        match (packages d).getLast?, ((fileOptions d).filter fun o => o.name = name).getLast? with
        | some p, some o => if o.constant.source ≠ value d p.name then [o.position] else []
        | _, _ => [] := by
      funext d
      unfold declared
      cases (packages d).getLast? with
      | none => rfl
      | some p =>
        cases ((fileOptions d).filter fun o => o.name = name).getLast? with
        | none => rfl
        | some o => by_cases hb : o.constant.source = value d p.name <;> simp [hb]
    rw [this]
    exact h
  intro rule hr
  simp only [prescribing, List.mem_cons, List.not_mem_nil, or_false] at hr
  rcases hr with rfl | rfl | rfl | rfl | rfl | rfl | rfl | rfl | rfl
  · exact key _ _ _ fun _ => Protostrs.csharpNamespace
  · exact key _ _ _ fun _ => Protostrs.goPackageV2
  · exact key _ _ _ fun _ => Protostrs.goPackage
  · exact key _ _ _ fun _ _ => s%"true"
  · exact key _ _ _ fun d _ => Protostrs.javaOuterClassname d.filename
  · exact key _ _ _ fun _ => Protostrs.javaPackage
  · exact key _ _ _ fun d pkg => Protostrs.javaPackagePrefixOverride pkg d.config.lint.javaPackagePrefix
  · exact key _ _ _ fun _ => Protostrs.objcClassPrefix
  · exact key _ _ _ fun _ => Protostrs.phpNamespace

/-! ## The theorems are about something -/

/-- ```
package uber.trip.v1;
option go_package = "x;y";
option go_package = "a;b";
message M { option java_package = "com.uber.trip.v1"; }
``` -/
def options : FileDescriptor := Sample.file s%"a.proto"
  [.package { position := Sample.at_ 1 0, name := s%"uber.trip.v1" },
   .option { position := Sample.at_ 2 0, name := s%"go_package", constant := .plain s%"x;y" },
   .option { position := Sample.at_ 3 0, name := s%"go_package", constant := .plain s%"a;b" },
   .message { name := s%"M" }
     [.option { position := Sample.at_ 4 9, name := s%"java_package", constant := .plain s%"com.uber.trip.v1" }]]

example : declared s%"java_package" options = [] := by decide
example : (declared s%"go_package" options).getLast?.toList.map (·.position) = [Sample.at_ 3 0] := by
  decide
example : ((declared s%"go_package" options).getLast?.toList.filter fun o =>
    s%";" <:+: o.constant.source).map (·.position) = [Sample.at_ 3 0] := by decide
example : ((declared s%"go_package" options).getLast?.toList.filter fun o =>
    o.constant.source ≠ Protostrs.goPackageV2 s%"uber.trip.v1").map (·.position) = [Sample.at_ 3 0] := by
  decide +kernel
example : options.filename ≠ [] := by decide

end Verif.Props
