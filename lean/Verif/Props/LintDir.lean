import Verif.Proof.ReportsDir
import Verif.Spec.Sample

/-! # C31: the rules for the files of a directory -/

namespace Verif.Props

open Verif Proto Spec Lint Str

/-- PACKAGES_SAME_IN_DIR: unless the files agree on their packages, every file is reported.
Files without package do not count. Second package declarations are reported as well. -/
theorem C31_packages_same_in_dir (env : Env) : ReportsDir (packagesSameInDirLinter env) fun ds =>
    (ds.flatMap fun d => (packages d).tail.map (·.position)) ++
      if ¬ Agree packageNameOf ds then ds.map fun d => { filename := d.filename } else [] :=
  reports_packagesSameInDir env

/-- The options with such a rule. -/
def sameInDir (env : Env) : List (Linter × Str) :=
  [(fileOptionsCSharpNamespaceSameInDirLinter env, s%"csharp_namespace"),
   (fileOptionsGoPackageSameInDirLinter env, s%"go_package"),
   (fileOptionsJavaMultipleFilesSameInDirLinter env, s%"java_multiple_files"),
   (fileOptionsJavaPackageSameInDirLinter env, s%"java_package"),
   (fileOptionsOBJCClassPrefixSameInDirLinter env, s%"objc_class_prefix"),
   (fileOptionsPHPNamespaceSameInDirLinter env, s%"php_namespace")]

/-- FILE_OPTIONS_…_SAME_IN_DIR: unless the files agree on the value, a file without the option
counting as one with the empty value, every file is reported. -/
theorem C31_options_same_in_dir (env : Env) : ∀ p ∈ sameInDir env, ReportsDir p.1 fun ds =>
    (ds.flatMap fun d => (optionsNamed p.2 d).tail.map (·.position)) ++
      if ¬ Agree (optionValueOf p.2) ds then ds.map fun d => { filename := d.filename } else [] := by
  intro p hp
  simp only [sameInDir, List.mem_cons, List.not_mem_nil, or_false] at hp
  rcases hp with rfl | rfl | rfl | rfl | rfl | rfl <;> exact reports_optionSameInDir env _ _

/-- Whether the files agree does not depend on their order, so neither do the places that are
reported. -/
theorem C31_order (env : Env) (dirPath : Str) (ds es : List FileDescriptor) (h : ds.Perm es) :
    ∀ l ∈ packagesSameInDirLinter env :: (sameInDir env).map (·.1),
      ∃ fs gs, l.check dirPath ds = some (.ok fs) ∧ l.check dirPath es = some (.ok gs) ∧
        (fs.map place).Perm (gs.map place) := by
  have agree : ∀ v, Agree v ds ↔ Agree v es := by
    intro v
    unfold Agree
    simp only [h.mem_iff]
  have key : ∀ (l : Linter) (many : FileDescriptor → List Position)
      (v : FileDescriptor → Option Str), (ReportsDir l fun ds => ds.flatMap many ++
        if ¬ Agree v ds then ds.map fun d => { filename := d.filename } else []) →
      ∃ fs gs, l.check dirPath ds = some (.ok fs) ∧ l.check dirPath es = some (.ok gs) ∧
        (fs.map place).Perm (gs.map place) := by
    intro l many v hl
    obtain ⟨fs, h1, p1, _⟩ := hl dirPath ds
    obtain ⟨gs, h2, p2, _⟩ := hl dirPath es
    refine ⟨fs, gs, h1, h2, p1.trans (.trans ?_ p2.symm)⟩
    refine (h.flatMap_right many).append ?_
    by_cases ha : Agree v ds
    · rw [if_neg fun hn => hn ha, if_neg fun hn => hn ((agree v).1 ha)]
    · rw [if_pos ha, if_pos fun hn => ha ((agree v).2 hn)]
      exact h.map _
  intro l hl
  rcases List.mem_cons.1 hl with rfl | hl
  · exact key _ _ _ (C31_packages_same_in_dir env)
  · obtain ⟨p, hp, rfl⟩ := List.mem_map.1 hl
    exact key _ _ _ (C31_options_same_in_dir env p hp)

/-! ## These theorems are about something -/

def withPackage (filename pkg : Str) (goPackage : Str) : FileDescriptor := Sample.file filename
  [.package { name := pkg, position := Sample.at_ 1 1 },
   .option { name := s%"go_package", constant := .plain goPackage, position := Sample.at_ 2 1 }]

example : Agree packageNameOf [withPackage s%"a.proto" s%"p" s%"g", Sample.file s%"b.proto" []] ∧
    ¬ Agree (optionValueOf s%"go_package")
      [withPackage s%"a.proto" s%"p" s%"g", Sample.file s%"b.proto" []] ∧
    ¬ Agree packageNameOf
      [withPackage s%"a.proto" s%"p" s%"g", withPackage s%"b.proto" s%"q" s%"g"] ∧
    Agree (optionValueOf s%"go_package")
      [withPackage s%"a.proto" s%"p" s%"g", withPackage s%"b.proto" s%"q" s%"g"] := by
  decide +kernel

end Verif.Props
