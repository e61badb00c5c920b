import Verif.Proof.ReportsFile
import Verif.Spec.Sample

/-! # C59: the rules about the package, the syntax and the service of a file -/

namespace Verif.Props

open Verif Proto Spec Lint Str

/-- PACKAGE_IS_DECLARED: a file without a package, and every package declaration after the first. -/
theorem C59_package_is_declared (env : Env) : Reports (packageIsDeclaredLinter env) fun d =>
    (packages d).tail.map (·.position) ++
      if packages d = [] then [{ filename := d.filename }] else [] := by
  have h := reports_package (env := env) (purpose := (packageIsDeclaredLinter env).purpose) (id := s%"PACKAGE_IS_DECLARED")
    (finish := fun filename pkg => match pkg with
      | none => noPackage filename
      | some _ => [])
    (at_ := fun f p => if p = none then [{ filename := f }] else [])
    (by
      intro l f p
      cases p with
      | none => exact .fail _ _
      | some p => exact .nil)
  simp only [List.head?_eq_none_iff] at h
  exact h

/-- PACKAGE_MAJOR_BETA_VERSIONED: the same, and a first package that has no version. -/
theorem C59_package_versioned (env : Env) : Reports (packageMajorBetaVersionedLinter env) fun d =>
    (packages d).tail.map (·.position) ++
      match packages d with
      | [] => [{ filename := d.filename }]
      | p :: _ => if ¬ ∃ major beta, VersionedAs p.name major beta then [p.position] else [] := by
  have h := reports_package (env := env) (purpose := (packageMajorBetaVersionedLinter env).purpose) (id := s%"PACKAGE_MAJOR_BETA_VERSIONED")
    (finish := fun filename pkg => match pkg with
      | none => noPackage filename
      | some p => if (Protostrs.majorBetaVersion p.name).isNone then
          addFailure p.position [s%"Package should be of the form \"package.vMAJORVERSION\" or \"packagevMAJORVERSIONbetaBETAVERSION\" with versions >=1 but was ", quote p.name, s%"."]
        else [])
    (at_ := fun f p => match p with
      | none => [{ filename := f }]
      | some p => if ¬ ∃ major beta, VersionedAs p.name major beta then [p.position] else [])
    (by
      intro l f p
      cases p with
      | none => exact .fail _ _
      | some p => exact .iff (versioned_iff _))
  have he : (fun d : FileDescriptor => (packages d).tail.map (·.position) ++
      match packages d with
      | [] => [{ filename := d.filename }]
      | p :: _ => if ¬ ∃ major beta, VersionedAs p.name major beta then [p.position] else []) =
      fun d => (packages d).tail.map (·.position) ++
        match (packages d).head? with
        | none => [{ filename := d.filename }]
        | some p => if ¬ ∃ major beta, VersionedAs p.name major beta then [p.position] else [] := by
    funext d
    cases packages d <;> rfl
  rw [he]
  exact h

/-- SYNTAX_PROTO3: a file without a syntax, every syntax declaration after the first, and a
first one that is not `proto3`. -/
theorem C59_syntax_proto3 (env : Env) : Reports (syntaxProto3Linter env) fun d =>
    (syntaxes d).tail.map (·.position) ++
      match syntaxes d with
      | [] => [{ filename := d.filename }]
      | s :: _ => if s.value ≠ s%"proto3" then [s.position] else [] := by
  have h := reports_syntax (env := env)
  have he : (fun d : FileDescriptor => (syntaxes d).tail.map (·.position) ++
      match syntaxes d with
      | [] => [{ filename := d.filename }]
      | s :: _ => if s.value ≠ s%"proto3" then [s.position] else []) =
      fun d => (syntaxes d).tail.map (·.position) ++
        match (syntaxes d).head? with
        | none => [{ filename := d.filename }]
        | some s => if s.value ≠ s%"proto3" then [s.position] else [] := by
    funext d
    cases syntaxes d <;> rfl
  rw [he]
  exact h

/-- SERVICE_NAMES_MATCH_FILE_NAME: a single service whose file is not called after it, and all
services of a file with several. -/
theorem C59_service_names_match_file_name :
    ReportsOn (fun d => s%".proto" <:+ d.filename) serviceNamesMatchFileNameLinter fun d =>
      match services d with
      | [] => []
      | [s] => if fileStem d.filename ≠ Strs.toLowerSnakeCase s.name then [s.position] else []
      | ss => ss.map (·.position) := by
  have h := reports_services
  intro dirPath ds hok
  obtain ⟨fs, h1, h2, h3⟩ := h dirPath ds fun _ _ => trivial
  refine ⟨fs, h1, ?_, h3⟩
  refine h2.trans (.of_eq ?_)
  have hl : ∀ (f g : FileDescriptor → List Position), (∀ d ∈ ds, f d = g d) → ds.flatMap f = ds.flatMap g := by
    intro f g hfg
    rw [List.flatMap_def, List.flatMap_def, List.map_congr_left hfg]
  apply hl
  intro d hd
  have hb : ∀ w : Str, Path.base d.filename = w ++ s%".proto" ↔ fileStem d.filename = w := by
    intro w
    obtain ⟨q, hq⟩ := hok d hd
    have hstem : lastComponent d.filename = fileStem d.filename ++ s%".proto" := by
      unfold fileStem
      rw [← hq, lastComponent_proto]
      simp
    rw [show Path.base d.filename = lastComponent d.filename from by rw [← hq]; exact base_proto q,
      hstem]
    exact ⟨fun h => (List.append_inj' h rfl).1, fun h => by rw [h]⟩
  match services d with
  | [] => rfl
  | [s] => simp only [ne_eq, hb]
  | a :: b :: ss => rfl

/-! ## The theorems are about something -/

/-- ```
package uber.trip;
package other;
service A {}
service B {}
``` -/
def twice : FileDescriptor := Sample.file s%"a/trip_api.proto"
  [.package { position := Sample.at_ 1 0, name := s%"uber.trip" },
   .package { position := Sample.at_ 2 0, name := s%"other" },
   .service { position := Sample.at_ 3 0, name := s%"A" } [],
   .service { position := Sample.at_ 4 0, name := s%"B" } []]

/-- ```
syntax = "proto2";
service TripAPI {}
``` -/
def single : FileDescriptor := Sample.file s%"a/trip.proto"
  [.syntax { position := Sample.at_ 1 0, value := s%"proto2" },
   .service { position := Sample.at_ 2 0, name := s%"TripAPI" } []]

example : (packages twice).tail.map (·.position) = [Sample.at_ 2 0] := by decide
example : ¬ ∃ major beta, VersionedAs s%"uber.trip" major beta := by decide +kernel
example : (packages single) = [] ∧ (syntaxes twice) = [] := by decide
example : (syntaxes single).map (·.value) = [s%"proto2"] := by decide
example : (services twice).map (·.position) = [Sample.at_ 3 0, Sample.at_ 4 0] := by decide
example : (services single).map (·.position) = [Sample.at_ 2 0] ∧
    fileStem single.filename ≠ Strs.toLowerSnakeCase s%"TripAPI" ∧
    fileStem twice.filename = Strs.toLowerSnakeCase s%"TripAPI" ∧
    s%".proto" <:+ single.filename := by decide +kernel

end Verif.Props
