import Verif.Spec.Managed
import Verif.Props.LintOptions
import Verif.Props.LintDir

/-!
# C58: what the rules about file options ask for together

The rules of a group about file options are satisfied together by the values in `Options1` and
`Options2`. Used for `format --fix` and `create`.
-/

namespace Verif.Props

open Verif Proto Spec Lint Str

/-- These are all the rules of `uber1` about file options. -/
theorem C58_uber1_rules (env : Env) :
    (uber1Linters env).filter aboutOptions ⊆ optionRules1 ++ dirOptionRules1 env := by
  intro l hl
  obtain ⟨hl, ha⟩ := List.mem_filter.1 hl
  simp only [uber1Linters, List.mem_cons, List.not_mem_nil, or_false] at hl
  simp only [optionRules1, dirOptionRules1, List.mem_append, List.mem_cons, List.not_mem_nil, or_false]
  repeat' rcases hl with rfl | hl
  all_goals first
    | exact absurd ha Bool.false_ne_true
    | simp

/-- These are all the rules of `uber2` about file options. -/
theorem C58_uber2_rules (env : Env) :
    (uber2Linters env).filter aboutOptions ⊆ optionRules2 ++ dirOptionRules2 env := by
  intro l hl
  obtain ⟨hl, ha⟩ := List.mem_filter.1 hl
  simp only [uber2Linters, List.mem_cons, List.not_mem_nil, or_false] at hl
  simp only [optionRules2, dirOptionRules2, List.mem_append, List.mem_cons, List.not_mem_nil, or_false]
  repeat' rcases hl with rfl | hl
  all_goals first
    | exact absurd ha Bool.false_ne_true
    | simp

theorem silent_required {rule : Linter × Str} (hr : rule ∈ requiring) (dirPath : Str)
    {ds : List FileDescriptor} (h : ∀ d ∈ ds, ∃ value, Declares d rule.2 value) :
    rule.1.check dirPath ds = some (.ok []) := by
  obtain ⟨fs, hc, hp, _⟩ := C58_required rule hr dirPath ds fun _ _ => trivial
  have : (ds.flatMap fun d => if declared rule.2 d = [] then [({ filename := d.filename } : Position)] else []) = [] := by
    rw [List.flatMap_eq_nil_iff]
    intro d hd
    obtain ⟨v, o, ho, _⟩ := h d hd
    rw [show declared rule.2 d = [o] from ho]
    rfl
  rw [this] at hp
  rw [hc, List.map_eq_nil_iff.1 (List.perm_nil.1 hp)]

theorem last_package {d : FileDescriptor} {package : Str} (h : (packages d).map (·.name) = [package]) :
    ∃ p, (packages d).getLast? = some p ∧ p.name = package := by
  match hp : packages d with
  | [] => rw [hp] at h; cases h
  | [p] => rw [hp] at h; exact ⟨p, rfl, (List.cons.inj h).1⟩
  | p :: r :: ps => rw [hp] at h; simp at h

theorem silent_prescribed {rule : Linter × Str × (FileDescriptor → Str → Str)} (hr : rule ∈ prescribing)
    (dirPath : Str) {ds : List FileDescriptor}
    (h : ∀ d ∈ ds, d.filename ≠ [] ∧ ∃ package, (packages d).map (·.name) = [package] ∧
      Declares d rule.2.1 (rule.2.2 d package)) :
    rule.1.check dirPath ds = some (.ok []) := by
  obtain ⟨fs, hc, hp, _⟩ := C58_prescribed rule hr dirPath ds fun d hd => (h d hd).1
  rw [List.flatMap_eq_nil_iff.2 fun d hd => by
    obtain ⟨_, package, hp, o, ho, hv⟩ := h d hd
    obtain ⟨p, hlast, rfl⟩ := last_package hp
    rw [hlast, show declared rule.2.1 d = [o] from ho]
    simp [hv]] at hp
  rw [hc, List.map_eq_nil_iff.1 (List.perm_nil.1 hp)]

theorem silent_long_form (dirPath : Str) {ds : List FileDescriptor}
    (h : ∀ d ∈ ds, ∃ value, Declares d s%"go_package" value ∧ ';' ∉ value) :
    fileOptionsGoPackageNotLongFormLinter.check dirPath ds = some (.ok []) := by
  obtain ⟨fs, hc, hp, _⟩ := C58_go_package_not_long_form dirPath ds fun _ _ => trivial
  have : (ds.flatMap fun d => ((declared s%"go_package" d).getLast?.toList.filter fun o =>
      s%";" <:+: o.constant.source).map (·.position)) = [] := by
    rw [List.flatMap_eq_nil_iff]
    intro d hd
    obtain ⟨v, ⟨o, ho, hv⟩, hn⟩ := h d hd
    rw [show declared s%"go_package" d = [o] from ho]
    have hno : ¬ s%";" <:+: o.constant.source := by
      rw [hv]
      intro hi
      exact hn (hi.subset (List.mem_singleton.2 rfl))
    simp [hno]
  rw [this] at hp
  rw [hc, List.map_eq_nil_iff.1 (List.perm_nil.1 hp)]

theorem silent_same (env : Env) {rule : Linter × Str} (hr : rule ∈ sameInDir env) (dirPath : Str)
    {ds : List FileDescriptor} (value : Str) (h : ∀ d ∈ ds, Declares d rule.2 value) :
    rule.1.check dirPath ds = some (.ok []) := by
  obtain ⟨fs, hc, hp, _⟩ := C31_options_same_in_dir env rule hr dirPath ds
  have h1 : (ds.flatMap fun d => (optionsNamed rule.2 d).tail.map (·.position)) = [] := by
    rw [List.flatMap_eq_nil_iff]
    intro d hd
    obtain ⟨o, ho, _⟩ := h d hd
    rw [ho]
    rfl
  have h2 : Agree (optionValueOf rule.2) ds := by
    have : ∀ d ∈ ds, optionValueOf rule.2 d = some value := by
      intro d hd
      obtain ⟨o, ho, hv⟩ := h d hd
      unfold optionValueOf
      rw [ho, ← hv]
      rfl
    intro d hd d' hd' v hv v' hv'
    rw [this d hd] at hv
    rw [this d' hd'] at hv'
    cases hv
    cases hv'
    rfl
  dsimp only at hp
  rw [h1, if_neg (fun hn => hn h2)] at hp
  rw [hc, List.map_eq_nil_iff.1 (List.perm_nil.1 hp)]

theorem split_no_char {c x : Char} {s w : Str} (h : c ∉ s) (hw : w ∈ splitChar x s) : c ∉ w := by
  intro hc
  exact h (mem_of_split hw hc)
where
  mem_of_split {c x : Char} {s w : Str} (hw : w ∈ splitChar x s) (hc : c ∈ w) : c ∈ s := by
    rw [← join_splitChar x s]
    generalize splitChar x s = l at hw
    induction l with
    | nil => cases hw
    | cons v l ih =>
      cases l with
      | nil => rw [List.mem_singleton.1 hw] at hc; exact hc
      | cons u l =>
        show c ∈ v ++ [x] ++ join [x] (u :: l)
        rcases List.mem_cons.1 hw with rfl | hw
        · simp [hc]
        · exact List.mem_append_right _ (ih hw)

theorem getLastD_no_char {c : Char} {l : List Str} (h : ∀ w ∈ l, c ∉ w) : c ∉ l.getLastD [] := by
  rw [List.getLastD_eq_getLast?]
  cases hl : l.getLast? with
  | none => exact List.not_mem_nil
  | some w => exact h w (List.mem_of_getLast? hl)

theorem goPackage_no_semicolon {package : Str} (h : ';' ∉ package) : ';' ∉ Protostrs.goPackage package := by
  unfold Protostrs.goPackage
  split
  · exact List.not_mem_nil
  · rw [List.mem_append]
    exact fun h' => h'.elim (getLastD_no_char fun w hw => split_no_char h hw) (by decide)

theorem goPackageV2_no_semicolon {package : Str} (h : ';' ∉ package) : ';' ∉ Protostrs.goPackageV2 package := by
  unfold Protostrs.goPackageV2
  split
  · exact List.not_mem_nil
  · split
    · exact goPackage_no_semicolon h
    · rw [List.mem_append]
      exact fun h' => h'.elim (getLastD_no_char fun w hw => split_no_char h ((List.dropLast_sublist _).subset hw))
        (getLastD_no_char fun w hw => split_no_char h hw)

/-- The rules of `uber1` about file options have nothing to say about files with the options in
`Options1`. -/
theorem C58_uber1_together (dirPath : Str) (ds : List FileDescriptor)
    (h : ∀ d ∈ ds, ∃ package, ';' ∉ package ∧ Options1 d package) :
    ∀ l ∈ optionRules1, l.check dirPath ds = some (.ok []) := by
  intro l hl
  have eq : ∀ {rule : Linter × Str × (FileDescriptor → Str → Str)}, rule ∈ prescribing →
      (∀ d ∈ ds, ∀ package, Options1 d package → Declares d rule.2.1 (rule.2.2 d package)) →
      rule.1.check dirPath ds = some (.ok []) := fun hr hv =>
    silent_prescribed hr dirPath fun d hd =>
      let ⟨p, _, ho⟩ := h d hd
      ⟨ho.filename, p, ho.inPackage, hv d hd p ho⟩
  have req : ∀ {rule : Linter × Str}, rule ∈ requiring →
      (∀ d ∈ ds, ∀ package, Options1 d package → ∃ value, Declares d rule.2 value) →
      rule.1.check dirPath ds = some (.ok []) := fun hr hv =>
    silent_required hr dirPath fun d hd =>
      let ⟨p, _, ho⟩ := h d hd
      hv d hd p ho
  simp only [optionRules1, List.mem_cons, List.not_mem_nil, or_false] at hl
  rcases hl with rfl | rfl | rfl | rfl | rfl | rfl | rfl | rfl | rfl
  · exact eq (rule := (fileOptionsEqualGoPackagePbSuffixLinter, s%"go_package", fun _ => Protostrs.goPackage)) (by unfold prescribing; simp) fun _ _ _ h => h.go
  · exact eq (rule := (fileOptionsEqualJavaMultipleFilesTrueLinter, s%"java_multiple_files", fun _ _ => s%"true")) (by unfold prescribing; simp) fun _ _ _ h => h.multiple
  · exact eq (rule := (fileOptionsEqualJavaOuterClassnameProtoSuffixLinter, s%"java_outer_classname", fun d _ => Protostrs.javaOuterClassname d.filename))
      (by unfold prescribing; simp) fun _ _ _ h => h.outer
  · exact eq (rule := (fileOptionsEqualJavaPackageComPrefixLinter, s%"java_package", fun _ => Protostrs.javaPackage)) (by unfold prescribing; simp) fun _ _ _ h => h.java
  · exact silent_long_form dirPath fun d hd =>
      let ⟨p, hp, ho⟩ := h d hd
      ⟨_, ho.go, goPackage_no_semicolon hp⟩
  · exact req (rule := (fileOptionsRequireGoPackageLinter, s%"go_package")) (by unfold requiring; simp) fun _ _ _ h => ⟨_, h.go⟩
  · exact req (rule := (fileOptionsRequireJavaMultipleFilesLinter, s%"java_multiple_files")) (by unfold requiring; simp) fun _ _ _ h => ⟨_, h.multiple⟩
  · exact req (rule := (fileOptionsRequireJavaOuterClassnameLinter, s%"java_outer_classname")) (by unfold requiring; simp) fun _ _ _ h => ⟨_, h.outer⟩
  · exact req (rule := (fileOptionsRequireJavaPackageLinter, s%"java_package")) (by unfold requiring; simp) fun _ _ _ h => ⟨_, h.java⟩

/-- The same for `uber2`. -/
theorem C58_uber2_together (dirPath : Str) (ds : List FileDescriptor)
    (h : ∀ d ∈ ds, ∃ package, ';' ∉ package ∧ Options2 d package) :
    ∀ l ∈ optionRules2, l.check dirPath ds = some (.ok []) := by
  intro l hl
  have eq : ∀ {rule : Linter × Str × (FileDescriptor → Str → Str)}, rule ∈ prescribing →
      (∀ d ∈ ds, ∀ package, Options2 d package → Declares d rule.2.1 (rule.2.2 d package)) →
      rule.1.check dirPath ds = some (.ok []) := fun hr hv =>
    silent_prescribed hr dirPath fun d hd =>
      let ⟨p, _, ho⟩ := h d hd
      ⟨ho.filename, p, ho.inPackage, hv d hd p ho⟩
  have req : ∀ {rule : Linter × Str}, rule ∈ requiring →
      (∀ d ∈ ds, ∀ package, Options2 d package → ∃ value, Declares d rule.2 value) →
      rule.1.check dirPath ds = some (.ok []) := fun hr hv =>
    silent_required hr dirPath fun d hd =>
      let ⟨p, _, ho⟩ := h d hd
      hv d hd p ho
  simp only [optionRules2, List.mem_cons, List.not_mem_nil, or_false] at hl
  rcases hl with rfl | rfl | rfl | rfl | rfl | rfl | rfl | rfl | rfl | rfl | rfl | rfl | rfl | rfl | rfl
  · exact eq (rule := (fileOptionsEqualCSharpNamespaceCapitalizedLinter, s%"csharp_namespace", fun _ => Protostrs.csharpNamespace)) (by unfold prescribing; simp)
      fun _ _ _ h => h.csharp
  · exact eq (rule := (fileOptionsEqualGoPackageV2SuffixLinter, s%"go_package", fun _ => Protostrs.goPackageV2)) (by unfold prescribing; simp) fun _ _ _ h => h.go
  · exact eq (rule := (fileOptionsEqualJavaMultipleFilesTrueLinter, s%"java_multiple_files", fun _ _ => s%"true")) (by unfold prescribing; simp) fun _ _ _ h => h.multiple
  · exact eq (rule := (fileOptionsEqualJavaOuterClassnameProtoSuffixLinter, s%"java_outer_classname", fun d _ => Protostrs.javaOuterClassname d.filename))
      (by unfold prescribing; simp) fun _ _ _ h => h.outer
  · exact eq (rule := (fileOptionsEqualJavaPackagePrefixLinter, s%"java_package", fun d pkg =>
      Protostrs.javaPackagePrefixOverride pkg d.config.lint.javaPackagePrefix)) (by unfold prescribing; simp)
      fun _ _ _ h => h.java
  · exact eq (rule := (fileOptionsEqualOBJCClassPrefixAbbrLinter, s%"objc_class_prefix", fun _ => Protostrs.objcClassPrefix)) (by unfold prescribing; simp)
      fun _ _ _ h => h.objc
  · exact eq (rule := (fileOptionsEqualPHPNamespaceCapitalizedLinter, s%"php_namespace", fun _ => Protostrs.phpNamespace)) (by unfold prescribing; simp)
      fun _ _ _ h => h.php
  · exact silent_long_form dirPath fun d hd =>
      let ⟨p, hp, ho⟩ := h d hd
      ⟨_, ho.go, goPackageV2_no_semicolon hp⟩
  · exact req (rule := (fileOptionsRequireCSharpNamespaceLinter, s%"csharp_namespace")) (by unfold requiring; simp) fun _ _ _ h => ⟨_, h.csharp⟩
  · exact req (rule := (fileOptionsRequireGoPackageLinter, s%"go_package")) (by unfold requiring; simp) fun _ _ _ h => ⟨_, h.go⟩
  · exact req (rule := (fileOptionsRequireJavaMultipleFilesLinter, s%"java_multiple_files")) (by unfold requiring; simp) fun _ _ _ h => ⟨_, h.multiple⟩
  · exact req (rule := (fileOptionsRequireJavaOuterClassnameLinter, s%"java_outer_classname")) (by unfold requiring; simp) fun _ _ _ h => ⟨_, h.outer⟩
  · exact req (rule := (fileOptionsRequireJavaPackageLinter, s%"java_package")) (by unfold requiring; simp) fun _ _ _ h => ⟨_, h.java⟩
  · exact req (rule := (fileOptionsRequireOBJCClassPrefixLinter, s%"objc_class_prefix")) (by unfold requiring; simp) fun _ _ _ h => ⟨_, h.objc⟩
  · exact req (rule := (fileOptionsRequirePHPNamespaceLinter, s%"php_namespace")) (by unfold requiring; simp) fun _ _ _ h => ⟨_, h.php⟩

/-- For the files of a directory with one package the rules of `uber1` that compare them are
satisfied as well. -/
theorem C58_uber1_same_in_dir (env : Env) (dirPath : Str) (ds : List FileDescriptor) (package : Str)
    (h : ∀ d ∈ ds, Options1 d package) :
    ∀ l ∈ dirOptionRules1 env, l.check dirPath ds = some (.ok []) := by
  intro l hl
  simp only [dirOptionRules1, List.mem_cons, List.not_mem_nil, or_false] at hl
  rcases hl with rfl | rfl | rfl
  · exact silent_same env (rule := (fileOptionsGoPackageSameInDirLinter env, s%"go_package")) (by unfold sameInDir; simp) dirPath _ fun d hd => (h d hd).go
  · exact silent_same env (rule := (fileOptionsJavaMultipleFilesSameInDirLinter env, s%"java_multiple_files")) (by unfold sameInDir; simp) dirPath _ fun d hd => (h d hd).multiple
  · exact silent_same env (rule := (fileOptionsJavaPackageSameInDirLinter env, s%"java_package")) (by unfold sameInDir; simp) dirPath _ fun d hd => (h d hd).java

/-- The same for `uber2`. The files of a directory have one configuration. -/
theorem C58_uber2_same_in_dir (env : Env) (dirPath : Str) (ds : List FileDescriptor) (package pre : Str)
    (h : ∀ d ∈ ds, Options2 d package) (hpre : ∀ d ∈ ds, d.config.lint.javaPackagePrefix = pre) :
    ∀ l ∈ dirOptionRules2 env, l.check dirPath ds = some (.ok []) := by
  intro l hl
  simp only [dirOptionRules2, List.mem_cons, List.not_mem_nil, or_false] at hl
  rcases hl with rfl | rfl | rfl | rfl | rfl | rfl
  · exact silent_same env (rule := (fileOptionsCSharpNamespaceSameInDirLinter env, s%"csharp_namespace")) (by unfold sameInDir; simp) dirPath _ fun d hd => (h d hd).csharp
  · exact silent_same env (rule := (fileOptionsGoPackageSameInDirLinter env, s%"go_package")) (by unfold sameInDir; simp) dirPath _ fun d hd => (h d hd).go
  · exact silent_same env (rule := (fileOptionsJavaMultipleFilesSameInDirLinter env, s%"java_multiple_files")) (by unfold sameInDir; simp) dirPath _ fun d hd => (h d hd).multiple
  · exact silent_same env (rule := (fileOptionsJavaPackageSameInDirLinter env, s%"java_package")) (by unfold sameInDir; simp) dirPath
      (Protostrs.javaPackagePrefixOverride package pre) fun d hd => hpre d hd ▸ (h d hd).java
  · exact silent_same env (rule := (fileOptionsOBJCClassPrefixSameInDirLinter env, s%"objc_class_prefix")) (by unfold sameInDir; simp) dirPath _ fun d hd => (h d hd).objc
  · exact silent_same env (rule := (fileOptionsPHPNamespaceSameInDirLinter env, s%"php_namespace")) (by unfold sameInDir; simp) dirPath _ fun d hd => (h d hd).php

/-! ## The theorems are about something -/

/-- A file with the options of `uber1`. -/
def managed1 : FileDescriptor := Sample.file s%"/a/foo_bar.proto"
  [.package { name := s%"uber.trip.v1" },
   .option { name := s%"go_package", constant := .str s%"v1pb" },
   .option { name := s%"java_multiple_files", constant := .plain s%"true" },
   .option { name := s%"java_outer_classname", constant := .str s%"FooBarProto" },
   .option { name := s%"java_package", constant := .str s%"com.uber.trip.v1" }]

example : Options1 managed1 s%"uber.trip.v1" ∧ ';' ∉ s%"uber.trip.v1" := by
  refine ⟨⟨by decide, by decide +kernel, ⟨_, rfl, ?_⟩, ⟨_, rfl, ?_⟩, ⟨_, rfl, ?_⟩, ⟨_, rfl, ?_⟩⟩, by decide⟩ <;>
    decide +kernel

/-- A file with the options of `uber2`. -/
def managed2 : FileDescriptor := Sample.file s%"/a/foo_bar.proto"
  [.package { name := s%"uber.trip.v1" },
   .option { name := s%"csharp_namespace", constant := .str s%"Uber.Trip.V1" },
   .option { name := s%"go_package", constant := .str s%"tripv1" },
   .option { name := s%"java_multiple_files", constant := .plain s%"true" },
   .option { name := s%"java_outer_classname", constant := .str s%"FooBarProto" },
   .option { name := s%"java_package", constant := .str s%"com.uber.trip.v1" },
   .option { name := s%"objc_class_prefix", constant := .str s%"UTX" },
   .option { name := s%"php_namespace", constant := .str s%"Uber\\\\Trip\\\\V1" }]

example : Options2 managed2 s%"uber.trip.v1" := by
  refine ⟨by decide, by decide +kernel, ⟨_, rfl, ?_⟩, ⟨_, rfl, ?_⟩, ⟨_, rfl, ?_⟩, ⟨_, rfl, ?_⟩, ⟨_, rfl, ?_⟩,
    ⟨_, rfl, ?_⟩, ⟨_, rfl, ?_⟩⟩ <;> decide +kernel

end Verif.Props
