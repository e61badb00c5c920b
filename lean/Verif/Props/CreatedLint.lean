import Verif.Proof.CreatedLint
import Verif.Proof.FormatTwice
import Verif.Proof.LintTotal
import Verif.Props.ExecNames
import Verif.Props.LintRun
import Verif.Props.LintConfig
import Verif.Props.Readable

/-!
# C91: linting created files
-/

namespace Verif.Props

open Verif Str Path Proto Spec Lint Format Created
open Verif.Exec (Finds Prints CanPrint Compiles)
open Verif.File (getForDirOf)

/-! ## The rules about comments, names, packages and the header -/

section

variable {uber2 : Bool} {path package : Str} {d : FileDescriptor}

theorem created_nodes (h : CreatedAs uber2 path package d) : fileNodes d = d.elements.map fun e => ⟨[], e⟩ :=
  flat_nodes (flat_created h.declares)

theorem created_package (h : CreatedAs uber2 path package d) : ∃ p, packages d = [p] ∧ p.name = package := by
  obtain ⟨p, rest, h1, h2, h3⟩ := List.map_eq_cons_iff.1 (created_packages h.declares)
  rw [List.map_eq_nil_iff.1 h3] at h1
  exact ⟨p, h1, h2⟩

theorem created_package_mem {p : Package} (h : packages d = [p]) : Element.package p ∈ d.elements := by
  have : p ∈ packages d := by rw [h]; exact List.mem_singleton.2 rfl
  unfold packages at this
  rw [inside_nothing, List.filterMap_map, List.mem_filterMap] at this
  obtain ⟨e, he, ha⟩ := this
  cases e <;> first | cases ha | skip
  exact he

theorem created_plain {p : Package} (h : CreatedAs uber2 path package d) (hp : packages d = [p]) :
    p.comment = none := by
  rcases h.plain _ (created_package_mem hp) with ⟨c, e⟩ | h
  · cases e
  · exact h.1

theorem c_style_iff (h : CreatedAs uber2 path package d) :
    ((fileNodes d).flatMap fun n =>
      ([commentOf n.self, inlineCommentOf n.self].filterMap id |>.filter fun c => c.cstyle = true).map
        fun _ => positionOf n.self) = [] ↔ NoCStyle d := by
  rw [created_nodes h, List.flatMap_map, List.flatMap_eq_nil_iff]
  refine ⟨fun hn c hc => ?_, fun hn e he => ?_⟩
  · have := hn _ hc
    rw [List.map_eq_nil_iff, List.filter_eq_nil_iff] at this
    have := this c (by simp [commentOf])
    simpa using this
  · rw [List.map_eq_nil_iff, List.filter_eq_nil_iff]
    intro c hc
    rcases h.plain e he with ⟨c', rfl⟩ | ⟨h1, h2⟩
    · have : c = c' := by simpa [commentOf, inlineCommentOf] using hc
      subst this
      simp [hn c he]
    · rw [h1, h2] at hc
      cases hc

theorem inline_nil (h : CreatedAs uber2 path package d) :
    ((fileNodes d).flatMap fun n => (inlineCommentOf n.self).toList.map (·.position)) = [] := by
  rw [created_nodes h, List.flatMap_map, List.flatMap_eq_nil_iff]
  intro e he
  rcases h.plain e he with ⟨c', rfl⟩ | ⟨_, h2⟩
  · rfl
  · dsimp only; rw [h2]; rfl

theorem words_iff (h : CreatedAs uber2 path package d) {word : Str}
    (hw : ∀ o ∈ newOptions uber2 path package d.config.lint.javaPackagePrefix, ¬ word <:+: toLower o.name) :
    ((fileNodes d).flatMap fun n =>
      ((namesOf n.self).filter fun name => word <:+: toLower name ∧
        ¬ Suppressed s%"naming" d.config (commentOf n.self)).map fun _ => positionOf n.self) = [] ↔
      ¬ word <:+: toLower package := by
  obtain ⟨p, hp, hn⟩ := created_package h
  have hc := created_plain h hp
  rw [created_nodes h, List.flatMap_map, List.flatMap_eq_nil_iff]
  refine ⟨fun hall hin => ?_, fun hno e he => ?_⟩
  · have := hall _ (created_package_mem hp)
    rw [List.map_eq_nil_iff, List.filter_eq_nil_iff] at this
    have := this p.name (by simp [namesOf])
    rw [hn] at this
    refine this (decide_eq_true ⟨hin, fun hs => ?_⟩)
    obtain ⟨_, c, hs, _⟩ := hs
    have hs : p.comment = some c := hs
    rw [hc] at hs
    cases hs
  · rw [List.map_eq_nil_iff, List.filter_eq_nil_iff]
    intro name hname hd
    have hin := (of_decide_eq_true hd).1
    clear hd
    have hf := flat_created h.declares e he
    cases e <;> first | (cases hf; done) | skip
    · cases hname
    · cases hname
    · rename_i p'
      have hp' : p' ∈ packages d := by
        unfold packages
        rw [inside_nothing, List.filterMap_map, List.mem_filterMap]
        exact ⟨_, he, rfl⟩
      rw [hp] at hp'
      cases List.mem_singleton.1 hp'
      cases List.mem_singleton.1 hname
      rw [hn] at hin
      exact hno hin
    · rename_i o
      have ho : o ∈ fileOptions d := by
        unfold fileOptions
        rw [inside_nothing, List.filterMap_map, List.mem_filterMap]
        exact ⟨_, he, rfl⟩
      cases List.mem_singleton.1 hname
      refine hw (bareOption o) ?_ hin
      rw [← created_options h.declares]
      exact List.mem_map_of_mem ho

theorem keywords_iff (h : CreatedAs uber2 path package d) :
    ((packages d).flatMap fun p =>
      ((splitChar '.' p.name).filter fun part =>
        toLower part ∈ [s%"internal", s%"public", s%"private", s%"protected", s%"std"] ∧
          ¬ Suppressed s%"keywords" d.config p.comment).map fun _ => p.position) = [] ↔
      ∀ part ∈ splitChar '.' package,
        toLower part ∉ [s%"internal", s%"public", s%"private", s%"protected", s%"std"] := by
  obtain ⟨p, hp, hn⟩ := created_package h
  have hc := created_plain h hp
  have hs : ¬ Suppressed s%"keywords" d.config p.comment := by
    rintro ⟨_, c, hs, _⟩
    rw [hc] at hs
    cases hs
  rw [hp, List.flatMap_cons, List.flatMap_nil, List.append_nil, List.map_eq_nil_iff, List.filter_eq_nil_iff, hn]
  refine forall_congr' fun part => imp_congr_right fun _ => ?_
  rw [decide_eq_true_iff]
  exact not_congr ⟨fun h => h.1, fun h => ⟨h, hs⟩⟩

theorem declared_nil (h : CreatedAs uber2 path package d) :
    (packages d).tail.map (·.position) ++ (if packages d = [] then [({ filename := d.filename } : Position)] else []) = [] := by
  obtain ⟨p, hp, _⟩ := created_package h
  rw [hp, if_neg (by simp)]
  rfl

theorem versioned_iff (h : CreatedAs uber2 path package d) :
    ((packages d).tail.map (·.position) ++
      match packages d with
      | [] => [{ filename := d.filename }]
      | p :: _ => if ¬ ∃ major beta, VersionedAs p.name major beta then [p.position] else []) = [] ↔
      ∃ major beta, VersionedAs package major beta := by
  obtain ⟨p, hp, hn⟩ := created_package h
  rw [hp]
  dsimp only
  rw [hn, List.tail_cons, List.map_nil, List.nil_append]
  split
  · rename_i hv; exact ⟨fun h => (nomatch h), fun h => absurd h hv⟩
  · rename_i hv; exact ⟨fun _ => Classical.not_not.1 hv, fun _ => rfl⟩

theorem syntax_nil (h : CreatedAs uber2 path package d) :
    ((syntaxes d).tail.map (·.position) ++
      match syntaxes d with
      | [] => [{ filename := d.filename }]
      | s :: _ => if s.value ≠ s%"proto3" then [s.position] else []) = [] := by
  obtain ⟨s, rest, h1, h2, h3⟩ := List.map_eq_cons_iff.1 (created_syntaxes h.declares)
  rw [List.map_eq_nil_iff.1 h3] at h1
  rw [h1]
  dsimp only
  rw [if_neg (not_not_intro h2)]
  rfl

theorem package_iff (h : CreatedAs uber2 path package d) {q : Str → Prop} [DecidablePred q] :
    ((packages d).tail.map (·.position) ++
      ((packages d).head?.toList.filter fun p => ¬ q p.name).map (·.position)) = [] ↔ q package := by
  obtain ⟨p, hp, hn⟩ := created_package h
  rw [hp]
  by_cases hq : q package <;> simp [hn, hq]

theorem header_nil (h : CreatedAs uber2 path package d) :
    (if ¬ d.config.lint.fileHeader <+: d.fileData then [({ filename := d.filename } : Position)] else []) = [] := by
  rw [if_neg]
  rw [Classical.not_not, h.text]
  unfold newText
  split
  · rename_i he; rw [he]; exact List.nil_prefix
  · rw [List.append_assoc, List.append_assoc]
    exact List.prefix_append ..

theorem one_package {env : Env} (dirPath : Str) {ds : List FileDescriptor}
    (h : ∀ d ∈ ds, ∃ path, CreatedAs uber2 path package d) :
    (packagesSameInDirLinter env).check dirPath ds = some (.ok []) := by
  obtain ⟨fs, hc, hp, _⟩ := C31_packages_same_in_dir env dirPath ds
  have hn : (ds.flatMap fun d => (packages d).tail.map (·.position)) = [] := by
    rw [List.flatMap_eq_nil_iff]
    intro d hd
    obtain ⟨_, h⟩ := h d hd
    obtain ⟨p, hp, _⟩ := created_package h
    rw [hp]
    rfl
  have ha : Agree packageNameOf ds := by
    have hv : ∀ d ∈ ds, packageNameOf d = some package := by
      intro d hd
      obtain ⟨_, h⟩ := h d hd
      obtain ⟨p, hp, hn⟩ := created_package h
      unfold packageNameOf
      rw [hp]
      exact congrArg some hn
    intro d hd d' hd' v hv1 v' hv2
    rw [hv d hd] at hv1
    rw [hv d' hd'] at hv2
    cases hv1
    cases hv2
    rfl
  dsimp only at hp
  rw [hn, if_neg (not_not_intro ha)] at hp
  rw [hc, List.map_eq_nil_iff.1 (List.perm_nil.1 hp)]

theorem created_filename (h : CreatedAs uber2 path package d) : d.filename ≠ [] := by
  intro e
  have := h.named.1
  rw [e] at this
  exact absurd (List.suffix_nil.1 this) (by decide)

end

/-! ## The rules about options -/

/-- C41 for files as they are parsed: a file created for `uber2` has the options the group
requires. -/
theorem C41_uber2_parsed (path package : Str) (d : FileDescriptor) (h : CreatedAs true path package d) :
    Options2 d package := by
  have hf := created_filename h
  have hd := h.declares
  refine ⟨hf, created_packages hd, ?_, ?_, ?_, ?_, ?_, ?_, ?_⟩
  · exact declares_created hd (name := s%"csharp_namespace") (isString := true) (quote := '"') rfl
  · exact declares_created hd (name := s%"go_package") (isString := true) (quote := '"') rfl
  · exact declares_created hd (name := s%"java_multiple_files") (isString := false) (quote := '"') rfl
  · rw [outer_eq hf h.named.2.1 h.named.2.2]
    exact declares_created hd (name := s%"java_outer_classname") (isString := true) (quote := '"') rfl
  · exact declares_created hd (name := s%"java_package") (isString := true) (quote := '"') rfl
  · exact declares_created hd (name := s%"objc_class_prefix") (isString := true) (quote := '"') rfl
  · exact declares_created hd (name := s%"php_namespace") (isString := true) (quote := '"') rfl

/-- The same for the other groups and `uber1`, if the prefix for Java packages is not another. -/
theorem C41_uber1_parsed_partial (path package : Str) (d : FileDescriptor) (h : CreatedAs false path package d)
    (hpre : d.config.lint.javaPackagePrefix ∈ [[], s%"com"]) : Options1 d package := by
  have hf := created_filename h
  have hd := h.declares
  refine ⟨hf, created_packages hd, ?_, ?_, ?_, ?_⟩
  · exact declares_created hd (name := s%"go_package") (isString := true) (quote := '"') rfl
  · exact declares_created hd (name := s%"java_multiple_files") (isString := false) (quote := '"') rfl
  · rw [outer_eq hf h.named.2.1 h.named.2.2]
    exact declares_created hd (name := s%"java_outer_classname") (isString := true) (quote := '"') rfl
  · have : Protostrs.javaPackage package =
        Protostrs.javaPackagePrefixOverride package d.config.lint.javaPackagePrefix := by
      unfold Protostrs.javaPackagePrefixOverride Protostrs.javaPackage
      simp only [List.mem_cons, List.not_mem_nil, or_false] at hpre
      rcases hpre with e | e <;> rw [e] <;> rfl
    rw [this]
    exact declares_created hd (name := s%"java_package") (isString := true) (quote := '"') rfl

/-! ## All the rules of a group -/

theorem no_semicolon_of_lower {package : Str} (h : PackageLowerCase package) : ';' ∉ package := by
  intro hin
  rcases h _ hin with h | h | h <;> exact absurd h (by decide)

theorem no_semicolon_of_snake {package : Str} (h : LowerSnakeCase (package.filter (· ≠ '.'))) : ';' ∉ package := by
  intro hin
  rcases h.2.2.2 ';' (List.mem_filter.2 ⟨hin, by decide⟩) with h | h | h <;> exact absurd h (by decide)

theorem uber2_silent_iff (env : Env) (dirPath : Str) (ds : List FileDescriptor) (package pre : Str)
    (h : ∀ d ∈ ds, ∃ path, CreatedAs true path package d)
    (hpre : ∀ d ∈ ds, d.config.lint.javaPackagePrefix = pre) :
    (∀ l ∈ uber2Linters env, l.check dirPath ds = some (.ok [])) ↔
      ∀ d ∈ ds, Presentable d.filename package ∧ NoCStyle d := by
  have hproto : ∀ d ∈ ds, s%".proto" <:+ d.filename := fun d hd =>
    let ⟨_, h⟩ := h d hd
    h.named.1
  have hflat : ∀ d ∈ ds, ∀ e ∈ d.elements, Flat e := fun d hd =>
    let ⟨_, h⟩ := h d hd
    flat_created h.declares
  have hfile : ∀ d : FileDescriptor, (if ¬ LowerSnakeCase (fileStem d.filename) then
      [({ filename := d.filename } : Position)] else []) = [] ↔ LowerSnakeCase (fileStem d.filename) := by
    intro d
    by_cases hl : LowerSnakeCase (fileStem d.filename) <;> simp [hl]
  have hopts : ∀ word ∈ [s%"common", s%"data", s%"uuid"], ∀ path pre,
      ∀ o ∈ newOptions true path package pre, ¬ word <:+: toLower o.name := by
    intro word hw path pre o ho
    have : o.name ∈ (newOptions true path package pre).map (·.name) := List.mem_map_of_mem ho
    have e : (newOptions true path package pre).map (·.name) =
        [s%"csharp_namespace", s%"go_package", s%"java_multiple_files", s%"java_outer_classname",
         s%"java_package", s%"objc_class_prefix", s%"php_namespace"] := rfl
    rw [e] at this
    exact (by decide +kernel : ∀ word ∈ [s%"common", s%"data", s%"uuid"], ∀ name ∈
      [s%"csharp_namespace", s%"go_package", s%"java_multiple_files", s%"java_outer_classname",
         s%"java_package", s%"objc_class_prefix", s%"php_namespace"], ¬ word <:+: toLower name) word hw _ this
  constructor
  · intro hall d hd
    obtain ⟨path, hc⟩ := h d hd
    have mem : ∀ {l : Linter}, l ∈ uber2Linters env → l.check dirPath ds = some (.ok []) := fun hl => hall _ hl
    refine ⟨⟨?_, ?_, ?_, ?_, ?_⟩, ?_⟩
    · exact (hfile d).1 ((silent_on C29_file_names_lower_snake_case dirPath hproto).1
        (mem (by simp [uber2Linters])) d hd)
    · exact (package_iff hc).1 ((silent (C29_package_lower_case env) dirPath ds).1 (mem (by simp [uber2Linters])) d hd)
    · exact (versioned_iff hc).1 ((silent (C59_package_versioned env) dirPath ds).1 (mem (by simp [uber2Linters])) d hd)
    · exact (keywords_iff hc).1 ((silent C28_package_no_keywords dirPath ds).1 (mem (by simp [uber2Linters])) d hd)
    · intro word hw
      have ho := hopts word hw path d.config.lint.javaPackagePrefix
      simp only [List.mem_cons, List.not_mem_nil, or_false] at hw
      rcases hw with rfl | rfl | rfl
      · exact (words_iff hc ho).1 ((silent C28_names_no_common dirPath ds).1 (mem (by simp [uber2Linters])) d hd)
      · exact (words_iff hc ho).1 ((silent C28_names_no_data dirPath ds).1 (mem (by simp [uber2Linters])) d hd)
      · exact (words_iff hc ho).1 ((silent C28_names_no_uuid dirPath ds).1 (mem (by simp [uber2Linters])) d hd)
    · exact (c_style_iff hc).1 ((silent C55_comments_no_c_style dirPath ds).1 (mem (by simp [uber2Linters])) d hd)
  · intro hall l hl
    have hw : ∀ word ∈ [s%"common", s%"data", s%"uuid"], ∀ d ∈ ds, ((fileNodes d).flatMap fun n =>
        ((namesOf n.self).filter fun name => word <:+: toLower name ∧
          ¬ Suppressed s%"naming" d.config (commentOf n.self)).map fun _ => positionOf n.self) = [] := by
      intro word hw d hd
      obtain ⟨path, hc⟩ := h d hd
      exact (words_iff hc (hopts word hw _ _)).2 ((hall d hd).1.meaning word hw)
    have hone : l ∈ optionRules2 → l.check dirPath ds = some (.ok []) :=
      C58_uber2_together dirPath ds (fun d hd =>
        let ⟨path, hc⟩ := h d hd
        ⟨package, no_semicolon_of_lower (hall d hd).1.lower, C41_uber2_parsed path package d hc⟩) l
    have hdir : l ∈ dirOptionRules2 env → l.check dirPath ds = some (.ok []) :=
      C58_uber2_same_in_dir env dirPath ds package pre (fun d hd =>
        let ⟨path, hc⟩ := h d hd
        C41_uber2_parsed path package d hc) hpre l
    simp only [uber2Linters, List.mem_cons, List.not_mem_nil, or_false] at hl
    repeat' rcases hl with rfl | hl
    all_goals try subst hl
    all_goals first
      | exact aside_check rfl ⟨fun _ => rfl, fun _ => rfl, fun _ => rfl, fun _ => rfl, fun _ _ => rfl, fun _ _ => rfl⟩ dirPath ds hflat
      | exact aside_check rfl (except_aside rfl) dirPath ds hflat
      | (refine hone ?_; simp [optionRules2]; done)
      | (refine hdir ?_; simp [dirOptionRules2]; done)
      | exact one_package dirPath h
      | skip
    · exact (silent C55_comments_no_c_style dirPath ds).2 fun d hd =>
        let ⟨_, hc⟩ := h d hd
        (c_style_iff hc).2 (hall d hd).2
    · exact (silent C55_comments_no_inline dirPath ds).2 fun d hd =>
        let ⟨_, hc⟩ := h d hd
        inline_nil hc
    · exact (silent C57_file_header dirPath ds).2 fun d hd =>
        let ⟨_, hc⟩ := h d hd
        header_nil hc
    · exact (silent_on C29_file_names_lower_snake_case dirPath hproto).2 fun d hd => (hfile d).2 (hall d hd).1.file
    · exact (silent C28_names_no_common dirPath ds).2 (hw _ (by simp))
    · exact (silent C28_names_no_data dirPath ds).2 (hw _ (by simp))
    · exact (silent C28_names_no_uuid dirPath ds).2 (hw _ (by simp))
    · exact (silent (C59_package_is_declared env) dirPath ds).2 fun d hd =>
        let ⟨_, hc⟩ := h d hd
        declared_nil hc
    · exact (silent (C29_package_lower_case env) dirPath ds).2 fun d hd =>
        let ⟨_, hc⟩ := h d hd
        (package_iff hc).2 (hall d hd).1.lower
    · exact (silent (C59_package_versioned env) dirPath ds).2 fun d hd =>
        let ⟨_, hc⟩ := h d hd
        (versioned_iff hc).2 (hall d hd).1.versioned
    · exact (silent C28_package_no_keywords dirPath ds).2 fun d hd =>
        let ⟨_, hc⟩ := h d hd
        (keywords_iff hc).2 (hall d hd).1.free
    · exact (silent (C59_syntax_proto3 env) dirPath ds).2 fun d hd =>
        let ⟨_, hc⟩ := h d hd
        syntax_nil hc

theorem java_prefix {package pre : Str} (hp : package ≠ []) (hpre : Protostrs.javaPackagePrefixOverride package pre =
    Protostrs.javaPackage package) : pre ∈ [[], s%"com"] := by
  unfold Protostrs.javaPackagePrefixOverride Protostrs.javaPackage at hpre
  rw [if_neg hp, if_neg hp] at hpre
  by_cases he : pre = []
  · rw [he]; simp
  · rw [if_pos he] at hpre
    have := List.append_cancel_right hpre
    have : pre ++ s%"." = s%"com" ++ s%"." := this
    rw [List.append_cancel_right this]
    simp

theorem uber1_silent_iff (env : Env) (dirPath : Str) (ds : List FileDescriptor) (package : Str)
    (h : ∀ d ∈ ds, ∃ path, CreatedAs false path package d) :
    (∀ l ∈ uber1Linters env, l.check dirPath ds = some (.ok [])) ↔
      ∀ d ∈ ds, d.config.lint.javaPackagePrefix ∈ [[], s%"com"] ∧
        LowerSnakeCase (package.filter (· ≠ '.')) ∧ NoCStyle d := by
  have hflat : ∀ d ∈ ds, ∀ e ∈ d.elements, Flat e := fun d hd =>
    let ⟨_, h⟩ := h d hd
    flat_created h.declares
  constructor
  · intro hall d hd
    obtain ⟨path, hc⟩ := h d hd
    have mem : ∀ {l : Linter}, l ∈ uber1Linters env → l.check dirPath ds = some (.ok []) := fun hl => hall _ hl
    have hlow : LowerSnakeCase (package.filter (· ≠ '.')) :=
      (package_iff (q := fun s => LowerSnakeCase (s.filter (· ≠ '.'))) hc).1
        ((silent (C29_package_lower_snake_case env) dirPath ds).1 (mem (by simp [uber1Linters])) d hd)
    have hne : package ≠ [] := by
      rintro rfl
      exact hlow.1 rfl
    refine ⟨?_, hlow, ?_⟩
    · have := (silent_on (C58_prescribed (fileOptionsEqualJavaPackageComPrefixLinter, s%"java_package",
        fun _ => Protostrs.javaPackage) (by unfold prescribing; simp)) dirPath (fun d hd =>
          let ⟨_, h⟩ := h d hd
          created_filename h)).1 (mem (by simp [uber1Linters])) d hd
      obtain ⟨p, hp, hn⟩ := created_package hc
      obtain ⟨o, ho, hv⟩ := declares_created hc.declares (name := s%"java_package") (isString := true) (quote := '"') rfl
      rw [hp, show declared s%"java_package" d = [o] from ho] at this
      simp only [List.getLast?_singleton, Option.toList_some, List.map_eq_nil_iff, List.filter_eq_nil_iff,
        List.mem_singleton, forall_eq, decide_eq_true_eq, ne_eq, Classical.not_not, hn] at this
      exact java_prefix hne (hv.symm.trans this)
    · exact (c_style_iff hc).1 ((silent C55_comments_no_c_style dirPath ds).1 (mem (by simp [uber1Linters])) d hd)
  · intro hall l hl
    have hone : l ∈ optionRules1 → l.check dirPath ds = some (.ok []) :=
      C58_uber1_together dirPath ds (fun d hd =>
        let ⟨path, hc⟩ := h d hd
        ⟨package, no_semicolon_of_snake (hall d hd).2.1, C41_uber1_parsed_partial path package d hc (hall d hd).1⟩) l
    have hdir : l ∈ dirOptionRules1 env → l.check dirPath ds = some (.ok []) :=
      C58_uber1_same_in_dir env dirPath ds package (fun d hd =>
        let ⟨path, hc⟩ := h d hd
        C41_uber1_parsed_partial path package d hc (hall d hd).1) l
    simp only [uber1Linters, List.mem_cons, List.not_mem_nil, or_false] at hl
    repeat' rcases hl with rfl | hl
    all_goals try subst hl
    all_goals first
      | exact aside_check rfl ⟨fun _ => rfl, fun _ => rfl, fun _ => rfl, fun _ => rfl, fun _ _ => rfl, fun _ _ => rfl⟩ dirPath ds hflat
      | (refine hone ?_; simp [optionRules1]; done)
      | (refine hdir ?_; simp [dirOptionRules1]; done)
      | exact one_package dirPath h
      | skip
    · exact (silent C55_comments_no_c_style dirPath ds).2 fun d hd =>
        let ⟨_, hc⟩ := h d hd
        (c_style_iff hc).2 (hall d hd).2.2
    · exact (silent C57_file_header dirPath ds).2 fun d hd =>
        let ⟨_, hc⟩ := h d hd
        header_nil hc
    · exact (silent (C59_package_is_declared env) dirPath ds).2 fun d hd =>
        let ⟨_, hc⟩ := h d hd
        declared_nil hc
    · exact (silent (C29_package_lower_snake_case env) dirPath ds).2 fun d hd =>
        let ⟨_, hc⟩ := h d hd
        (package_iff (q := fun s => LowerSnakeCase (s.filter (· ≠ '.'))) hc).2 (hall d hd).2.1
    · exact (silent (C59_syntax_proto3 env) dirPath ds).2 fun d hd =>
        let ⟨_, hc⟩ := h d hd
        syntax_nil hc

theorem google_silent (env : Env) (dirPath : Str) (ds : List FileDescriptor) (package : Str)
    (h : ∀ d ∈ ds, ∃ path, CreatedAs false path package d) :
    ∀ l ∈ googleLinters env, l.check dirPath ds = some (.ok []) := by
  have hflat : ∀ d ∈ ds, ∀ e ∈ d.elements, Flat e := fun d hd =>
    let ⟨_, h⟩ := h d hd
    flat_created h.declares
  intro l hl
  simp only [googleLinters, List.mem_cons, List.not_mem_nil, or_false] at hl
  repeat' rcases hl with rfl | hl
  all_goals try subst hl
  all_goals first
    | exact aside_check rfl ⟨fun _ => rfl, fun _ => rfl, fun _ => rfl, fun _ => rfl, fun _ _ => rfl, fun _ _ => rfl⟩ dirPath ds hflat
    | skip
  exact (silent C57_file_header dirPath ds).2 fun d hd =>
    let ⟨_, hc⟩ := h d hd
    header_nil hc

/-- **The rules of a group report nothing about the created files of a directory exactly if the
names and the header are to its liking.** The files have one package and one configuration. -/
theorem C91_group (env : Env) (group : Str) (ls : List Linter) (hg : GoMap.get? (groupToLinters env) group = some ls)
    (dirPath : Str) (ds : List FileDescriptor) (package pre : Str)
    (h : ∀ d ∈ ds, ∃ path, CreatedAs (group = s%"uber2") path package d)
    (hpre : ∀ d ∈ ds, d.config.lint.javaPackagePrefix = pre) :
    (∀ l ∈ ls, l.check dirPath ds = some (.ok [])) ↔ ∀ d ∈ ds, Pleases group package d := by
  unfold groupToLinters at hg
  simp only [GoMap.get?_cons, GoMap.get?_nil] at hg
  split at hg
  · rename_i e; subst e; cases hg
    exact ⟨fun _ d hd => ⟨fun e => absurd e (by decide), fun e => absurd e (by decide)⟩,
      fun _ => google_silent env dirPath ds package h⟩
  split at hg
  · rename_i e; subst e; cases hg
    rw [uber1_silent_iff env dirPath ds package h]
    exact ⟨fun h d hd => ⟨fun e => absurd e (by decide), fun _ => h d hd⟩, fun h d hd => (h d hd).2 rfl⟩
  split at hg
  · rename_i e; subst e; cases hg
    rw [uber2_silent_iff env dirPath ds package pre h hpre]
    exact ⟨fun h d hd => ⟨fun _ => h d hd, fun e => absurd e (by decide)⟩, fun h d hd => (h d hd).1 rfl⟩
  split at hg
  · rename_i e; subst e; cases hg
    exact ⟨fun _ d hd => ⟨fun e => absurd e (by decide), fun e => absurd e (by decide)⟩,
      fun _ l hl => nomatch hl⟩
  · cases hg

/-! ## A run -/

/-- **If all the files of a run are created ones, those of a directory in one package, and the
names and the headers are to the liking of the group, lint succeeds and reports nothing.** Rules
may be left out and files ignored, but no rule is added to those of the group. -/
theorem C91_run (env : Env) (host : Host) (ps : File.ProtoSet) (absolutePaths : Bool)
    (hs : Sound host ps absolutePaths) (hk : KnownNames ps.config.lint)
    (hadd : ps.config.lint.includeIDs = []) (group : Str) (hg : AsksGroup ps.config.lint group)
    (hfiles : ∀ p ∈ ps.dirPathToFiles, ∃ package, ∀ f ∈ p.2, ∃ elements data path,
      host.parse f.path (nameIn absolutePaths f) = .ok (elements, data) ∧
      CreatedAs (group = s%"uber2") path package ⟨nameIn absolutePaths f, elements, ps.config, data⟩ ∧
      Pleases group package ⟨nameIn absolutePaths f, elements, ps.config, data⟩) :
    run env host ps absolutePaths = some (.ok []) := by
  obtain ⟨dirs, hd⟩ := dirResults_ok (host := host) (ps := ps) (abs := absolutePaths) fun f hf => by
    obtain ⟨p, hp, hf⟩ := List.mem_flatMap.1 hf
    obtain ⟨_, h⟩ := hfiles p (List.mem_filter.1 hp).1
    obtain ⟨e, dt, _, h, _⟩ := h f hf
    exact ⟨_, h⟩
  have hgood := dirResults_good hs hd
  have hdirs : ∀ p ∈ dirs, ∃ package, ∀ d ∈ p.2, d.config = ps.config ∧
      (∃ path, CreatedAs (group = s%"uber2") path package d) ∧ Pleases group package d := by
    intro p hp
    have : Except.ok p ∈ dirResults host ps absolutePaths := by
      rw [hd]; exact List.mem_map_of_mem hp
    obtain ⟨q, hq, he⟩ := List.mem_map.1 this
    cases hr : descriptorsOf host ps absolutePaths q.2 with
    | error e => rw [hr] at he; cases he
    | ok ds =>
      rw [hr] at he
      cases he
      obtain ⟨package, h⟩ := hfiles q (List.mem_filter.1 hq).1
      refine ⟨package, fun d hd => ?_⟩
      obtain ⟨f, hf, hdesc⟩ := descriptorsOf_mem hr d hd
      obtain ⟨e, dt, path, h1, h2, h3⟩ := h f hf
      unfold descriptorOf at hdesc
      dsimp only at hdesc
      rw [nameIn_eq, h1] at hdesc
      cases hdesc
      exact ⟨rfl, ⟨path, h2⟩, h3⟩
  rcases getLinters_spec env ps.config.lint with ⟨_, ls, h1, h2, _, h3⟩ | ⟨h, _⟩
  · obtain ⟨gls, hgls⟩ := ((C24_groups env).1 group).2 (hk.group group hg)
    obtain ⟨hsub, _, hids⟩ := (C24_groups env).2 group gls hgls
    have hin : ∀ l ∈ ls, l ∈ gls := by
      intro l hl
      obtain ⟨hor, _⟩ := (h3 l.id).1 (List.mem_map_of_mem hl)
      rw [hadd] at hor
      rcases hor with ⟨g', hg', hdoc⟩ | hor
      · rw [hg'.unique hg] at hdoc
        obtain ⟨l', hl', e⟩ := List.mem_map.1 ((hids l.id).2 hdoc)
        rw [← inj_of_nodup (C24_rules env).1 (hsub l' hl') (h2 l hl) e]
        exact hl'
      · cases hor
    have hall : ∀ p ∈ dirs, ∀ l ∈ ls, ∀ q : FileDescriptor → Bool, l.check p.1 (p.2.filter q) = some (.ok []) := by
      intro p hp l hl q
      obtain ⟨package, h⟩ := hdirs p hp
      exact (C91_group env group gls hgls p.1 (p.2.filter q) package ps.config.lint.javaPackagePrefix
        (fun d hd => (h d (List.mem_filter.1 hd).1).2.1)
        (fun d hd => by rw [(h d (List.mem_filter.1 hd).1).1])).2
          (fun d hd => (h d (List.mem_filter.1 hd).1).2.2) l (hin l hl)
    refine run_ok_iff.2 ⟨ls, h1, dirs, hd, fun p hp l hl => ?_, ?_⟩
    · rw [checkOne_eq (hgood p hp)]
      exact ⟨[], hall p hp l hl _⟩
    · have : (dirs.flatMap fun p => ls.flatMap fun l =>
          Lint.okOf (checkOne host l p.1 p.2 ps.config.lint.ignoreIDToFilePaths)) = [] := by
        rw [List.flatMap_eq_nil_iff]
        intro p hp
        rw [List.flatMap_eq_nil_iff]
        intro l hl
        rw [checkOne_eq (hgood p hp), hall p hp l hl]
        rfl
      rw [this]
      rfl
  · exact absurd hk h

/-! ## Which files these are -/

/-- A file with the text that `create` writes is a created one if the parser finds in it what is
written there: the declarations, with no comments but those of the header. The header consists of
comments, and the path, the package and the prefix can be written in a proto file. -/
theorem C91_created (uber2 : Bool) (path package : Str) (d : FileDescriptor)
    (hname : s%".proto" <:+ d.filename ∧ path ≠ [] ∧ base d.filename = base path)
    (htext : d.fileData =
      newText d.config.lint.fileHeader uber2 path package d.config.lint.javaPackagePrefix)
    (hread : readFile d.fileData = some (bareAll d.elements))
    (hplain : ∀ e ∈ d.elements, (∃ c, e = .comment c) ∨ commentOf e = none ∧ inlineCommentOf e = none)
    (hheader : CleanLines d.config.lint.fileHeader ∧ Trimmed d.config.lint.fileHeader)
    (hh : tokensOf d.config.lint.fileHeader = some [])
    (hn : Quotable path) (hj : Quotable d.config.lint.javaPackagePrefix) (hp : IsWord package) :
    CreatedAs uber2 path package d := by
  refine ⟨hname, htext, ?_, hplain⟩
  rw [htext, C87_create _ uber2 path package _ hheader hh hn hj hp] at hread
  exact (Option.some.inj hread).symm

/-- **After `create`, `lint` prints nothing and succeeds**: suppose that every file `lint` finds has
the text that `create` writes for a path with that base name (`C39_written`), with one package in
each directory, that the parser finds in the texts what is written there, and that the names and
the header are to the liking of the group. -/
theorem C91_command (h : Exec.Host) (c : File.Provider) (o : Order) (hd : Discovers h c o)
    (args : List Str) (m : Exec.Meta) (hm : Finds h args m) (hh : RunsHere h c m.protoSet)
    (hparse : ParserOK h) (hp : Prints h) (hc : CanPrint h) (env : Env) (srt : SortSlice)
    (w : Exec.World) (hcomp : Compiles h {} m w.disk) (hk : KnownNames m.protoSet.config.lint)
    (hadd : m.protoSet.config.lint.includeIDs = []) (group : Str) (hg : AsksGroup m.protoSet.config.lint group)
    (header pre : Str) (hheader : m.protoSet.config.lint.fileHeader = header)
    (hpre : m.protoSet.config.lint.javaPackagePrefix = pre)
    (hclean : CleanLines header ∧ Trimmed header) (hcomments : tokensOf header = some []) (hq : Quotable pre)
    (hfiles : ∀ p ∈ m.protoSet.dirPathToFiles, ∃ package, IsWord package ∧ ∀ f ∈ p.2, ∃ elements path,
      Quotable path ∧ path ≠ [] ∧ base f.displayPath = base path ∧
      w.disk f.path = some (newText header (group = s%"uber2") path package pre) ∧
      h.parse f.displayPath (newText header (group = s%"uber2") path package pre) = .ok elements ∧
      readFile (newText header (group = s%"uber2") path package pre) = some (bareAll elements) ∧
      (∀ e ∈ elements, (∃ c, e = .comment c) ∨ commentOf e = none ∧ inlineCommentOf e = none) ∧
      Pleases group package ⟨f.displayPath, elements, m.protoSet.config,
        newText header (group = s%"uber2") path package pre⟩) :
    Exec.lintCmd h env srt args {} w = (w, .ok ()) := by
  obtain ⟨_, _, hs⟩ := C82_discovered h c o hd args m hm hh hparse w.disk
  have hrun : run env (Exec.lintHost h w.disk) m.protoSet false = some (.ok []) := by
    refine C91_run env _ m.protoSet false (hs false) hk hadd group hg fun p hp => ?_
    obtain ⟨package, hw, hf⟩ := hfiles p hp
    refine ⟨package, fun f hfp => ?_⟩
    obtain ⟨elements, path, h1, h2, h3, h4, h5, h6, h7, h8⟩ := hf f hfp
    refine ⟨elements, newText header (group = s%"uber2") path package pre, path, ?_, C91_created _ path package _ ⟨((hs false).files p hp f hfp).1, h2, h3⟩ ?_ h6 h7 ?_ ?_ h1 ?_ hw, h8⟩
    · unfold Exec.lintHost
      dsimp only
      rw [h4]
      dsimp only
      rw [show nameIn false f = f.displayPath from rfl, h5]
    · rw [hheader, hpre]
    · exact hheader ▸ hclean
    · exact hheader ▸ hcomments
    · exact hpre ▸ hq
  rw [C62_lint h hp hc env srt args m hm w hcomp [] hrun]
  rw [show Exec.printed h m [] = [] from rfl, List.append_nil, if_pos rfl]

/-- The packages that are used where the configuration gives none please the groups, whatever the
file is called for `uber1` and if it has a proper name for `uber2`. -/
theorem C91_default (filename : Str) (hf : LowerSnakeCase (fileStem filename)) :
    Presentable filename s%"uber.prototool.generated.v1" ∧
    LowerSnakeCase (s%"uber.prototool.generated".filter (· ≠ '.')) :=
  ⟨⟨hf, by decide +kernel, by decide +kernel, by decide +kernel, by decide +kernel⟩, by decide +kernel⟩

/-! ## The theorems are about something -/

/-- The declaration at a line of the file. -/
def atLine (filename : Str) (line : Nat) : Element → Element
  | .syntax s => .syntax { s with position := ⟨filename, line, 1⟩ }
  | .package p => .package { p with position := ⟨filename, line, 1⟩ }
  | .option o => .option { o with position := ⟨filename, line, 1⟩ }
  | e => e

/-- The declarations of a created file below a header of one line. -/
def headedFile (filename path package pre : Str) : List Element :=
  .comment { lines := [s%" Header"], position := ⟨filename, 1, 1⟩ } ::
    (newFile [] true path package pre).zipIdx.map fun x => atLine filename (x.2 + 3) x.1

/-- Group `uber2` with a header and a prefix for Java packages; one rule is left out. -/
def headedConfig : Settings.Config :=
  { Sample.config with
    dirPath := s%"/r"
    lint := { Sample.config.lint with
      group := s%"uber2", fileHeader := s%"// Header", javaPackagePrefix := s%"org"
      excludeIDs := [s%"SYNTAX_PROTO3"] } }

/-- Every file is a created one in the package `foo.v1`. -/
def headedHost : Host where
  parse path filename := .ok (headedFile filename path s%"foo.v1" s%"org", newText s%"// Header" true path s%"foo.v1" s%"org")
  abs name := .ok (s%"/r/" ++ name)

/-- Two created files. -/
def headedFiles : File.ProtoSet where
  workDirPath := s%"/r"
  dirPath := s%"/r"
  dirPathToFiles := [(s%"/r", [⟨s%"/r/a.proto", s%"a.proto"⟩, ⟨s%"/r/b_c.proto", s%"b_c.proto"⟩])]
  config := headedConfig

theorem headed_bare (filename path package pre : Str) :
    bareAll (headedFile filename path package pre) = newFile [] true path package pre := by
  unfold headedFile newFile newOptions
  rfl

theorem headed_created (filename path package : Str)
    (hname : s%".proto" <:+ filename ∧ path ≠ [] ∧ base filename = base path) :
    CreatedAs true path package ⟨filename, headedFile filename path package s%"org", headedConfig,
      newText s%"// Header" true path package s%"org"⟩ := by
  refine ⟨hname, rfl, headed_bare .., fun e he => ?_⟩
  rcases List.mem_cons.1 he with rfl | he
  · exact .inl ⟨_, rfl⟩
  · obtain ⟨x, hx, rfl⟩ := List.mem_map.1 he
    have : x.1 ∈ newFile [] true path package s%"org" := by
      have := List.mem_map_of_mem (f := Prod.fst) hx
      rwa [List.zipIdx_map_fst] at this
    refine .inr ?_
    generalize x.1 = e at this
    unfold newFile newOptions at this
    simp only [List.map_nil, List.nil_append, List.mem_cons, List.map_cons, List.not_mem_nil, or_false, if_true] at this
    rcases this with rfl | rfl | rfl | rfl | rfl | rfl | rfl | rfl | rfl <;> exact ⟨rfl, rfl⟩

theorem headed_sound : Sound headedHost headedFiles true := by
  refine ⟨?_, ?_⟩
  · intro path filename elements data h config
    cases h
    have hflat : ∀ e ∈ headedFile filename path s%"foo.v1" s%"org", Flat e :=
      flat_of_bareAll fun e he => flat_created (d := ⟨filename, newFile [] true path s%"foo.v1" s%"org", config, []⟩)
        (uber2 := true) (path := path) (package := s%"foo.v1") (javaPrefix := s%"org") (by unfold newFile newOptions; rfl) e
          (by rw [headed_bare] at he; exact he)
    constructor <;> intro n hn <;> unfold fileNodes at hn <;> rw [flat_nodes hflat] at hn <;>
      obtain ⟨e, he, rfl⟩ := List.mem_map.1 hn
    · have := hflat e he
      cases e <;> first | (cases this; done) | rfl
    · unfold headedFile newFile newOptions at he
      simp only [List.map_nil, List.nil_append, List.mem_cons, List.map_cons, List.not_mem_nil, or_false, if_true,
        List.zipIdx_cons, List.zipIdx_nil] at he
      rcases he with rfl | rfl | rfl | rfl | rfl | rfl | rfl | rfl | rfl | rfl <;> exact ⟨rfl, fun _ h => nomatch h⟩
  · intro p hp f hf
    cases List.mem_singleton.1 hp
    have hbelow : ∀ name ∈ [s%"a.proto", s%"b_c.proto"], Below (s%"/r/" ++ name) s%"/r" := by
      intro name hn
      refine ⟨[s%"r"], [name], ?_, by simp, rfl, by simp [absPath]⟩
      unfold Components Component
      rcases List.mem_cons.1 hn with rfl | hn
      · decide
      · cases List.mem_singleton.1 hn
        decide
    rcases List.mem_cons.1 hf with rfl | hf
    · exact ⟨by decide, _, rfl, hbelow s%"a.proto" (by decide)⟩
    · cases List.mem_singleton.1 hf
      exact ⟨by decide, _, rfl, hbelow s%"b_c.proto" (by decide)⟩

theorem headed_known : KnownNames headedFiles.config.lint := by
  refine ⟨fun g hg => ?_, fun _ h => (nomatch h), fun id hid => ?_, fun _ h => (nomatch h)⟩
  · cases hg <;> first | decide | contradiction
  · rw [← mem_allIDs]
    revert id
    decide +kernel

/-- Both files please `uber2`. -/
theorem headed_pleases (f : File.ProtoFile) (hf : f ∈ [(⟨s%"/r/a.proto", s%"a.proto"⟩ : File.ProtoFile), ⟨s%"/r/b_c.proto", s%"b_c.proto"⟩]) :
    Pleases s%"uber2" s%"foo.v1" ⟨f.path, headedFile f.path f.path s%"foo.v1" s%"org", headedConfig,
      newText s%"// Header" true f.path s%"foo.v1" s%"org"⟩ := by
  refine ⟨fun _ => ⟨⟨?_, by decide +kernel, by decide +kernel, by decide +kernel, by decide +kernel⟩, ?_⟩,
    fun e => absurd e (by decide)⟩
  · revert f
    decide +kernel
  · intro c hc
    unfold headedFile newFile newOptions at hc
    simp only [List.map_nil, List.nil_append, List.mem_cons, List.map_cons, List.not_mem_nil, or_false, if_true,
      List.zipIdx_cons, List.zipIdx_nil] at hc
    rcases hc with hc | hc | hc | hc | hc | hc | hc | hc | hc | hc <;> cases hc
    rfl

/-- The run about these files. -/
example : run sampleEnv headedHost headedFiles true = some (.ok []) := by
  refine C91_run sampleEnv headedHost headedFiles true headed_sound headed_known rfl s%"uber2" (.named (by decide)) ?_
  intro p hp
  cases List.mem_singleton.1 hp
  refine ⟨s%"foo.v1", fun f hf => ⟨_, _, f.path, rfl, headed_created f.path f.path s%"foo.v1" ⟨?_, ?_, rfl⟩, headed_pleases f hf⟩⟩
  · revert f
    decide
  · revert f
    decide

/-- A created file that does not please `uber2`: its package has no version. -/
example (path : Str) (d : FileDescriptor) (h : CreatedAs true path s%"foo" d) :
    ¬ ∀ l ∈ uber2Linters sampleEnv, l.check s%"/r" [d] = some (.ok []) := by
  intro hall
  have := (C91_group sampleEnv s%"uber2" _ rfl s%"/r" [d] s%"foo" d.config.lint.javaPackagePrefix
    (fun d' hd => by cases List.mem_singleton.1 hd; exact ⟨path, h⟩)
    (fun d' hd => by cases List.mem_singleton.1 hd; rfl)).1 hall d (List.mem_singleton.2 rfl)
  exact absurd (this.1 rfl).1.versioned (by decide +kernel)

/-- The text of such a file. -/
example : readFile (newText s%"// Header" true s%"/r/a.proto" s%"foo.v1" s%"org") =
    some (bareAll (headedFile s%"/r/a.proto" s%"/r/a.proto" s%"foo.v1" s%"org")) := by
  rw [headed_bare]
  refine C87_create _ true _ _ _ ⟨?_, ?_⟩ (by decide +kernel) ?_ ?_ ?_
  · unfold CleanLines; decide +kernel
  · unfold Trimmed; decide +kernel
  · unfold Quotable; decide +kernel
  · unfold Quotable; decide +kernel
  · unfold IsWord; decide +kernel

/-- The declarations of a file created for the path `n` in the package `foo`, as `p`. -/
def smallFile (p n : Str) : List Element :=
  (newFile [] false n s%"foo" []).zipIdx.map fun x => atLine p (x.2 + 1) x.1

/-- The text of such a file. -/
def smallText (n : Str) : Str := newText [] false n s%"foo" []

/-- A host for the files of `exProvider`. -/
def smallHost : Exec.Host :=
  { Exec.Sample.host with
    wd := s%"/w/a"
    workDirPath := s%"/w/a"
    stat := fun p => if p = s%".." then .ok .dir else .error s%"no such file"
    getForDir := getForDirOf exProvider Order.id
    parse := fun p c =>
      match [s%"x.proto", s%"z.proto", s%"b.proto"].find? fun n => c = smallText n with
      | some n => .ok (smallFile p n)
      | none => .error s%"syntax" }

/-- The three files are created ones. -/
def smallWorld : Exec.World :=
  ⟨fun p => ([(s%"/w/a/x.proto", s%"x.proto"), (s%"/w/a/z.proto", s%"z.proto"), (s%"/w/b.proto", s%"b.proto")].find?
    fun x => x.1 = p).map fun x => smallText x.2, [], []⟩

theorem small_discovers : Discovers smallHost exProvider Order.id where
  getForDir := rfl
  wd := Exec.Sample.isAbsPath_iff.2 (by decide)
  workDirPath := by decide
  stat := fun k h => by simp [smallHost] at h
  tree := beside_discovers.tree
  excludes := fun _ => exProvider_below

theorem small_mem {p n : Str} {e : Element} (he : e ∈ smallFile p n) :
    (∃ s, e = .syntax s ∧ s.position.filename = p ∧ s.comment = none ∧ s.inlineComment = none) ∨
    (∃ s, e = .package s ∧ s.position.filename = p ∧ s.comment = none ∧ s.inlineComment = none) ∨
    (∃ s, e = .option s ∧ s.position.filename = p ∧ s.comment = none ∧ s.inlineComment = none) := by
  unfold smallFile newFile newOptions at he
  simp only [List.map_nil, List.nil_append, List.mem_cons, List.map_cons, List.not_mem_nil, or_false,
    List.zipIdx_cons, List.zipIdx_nil, Bool.false_eq_true, if_false] at he
  rcases he with rfl | rfl | rfl | rfl | rfl | rfl
  · exact .inl ⟨_, rfl, rfl, rfl, rfl⟩
  · exact .inr (.inl ⟨_, rfl, rfl, rfl, rfl⟩)
  all_goals exact .inr (.inr ⟨_, rfl, rfl, rfl, rfl⟩)

theorem small_parser : ParserOK smallHost := by
  have hcases : ∀ p c es, smallHost.parse p c = .ok es → ∃ n, es = smallFile p n ∧ ∀ p', smallHost.parse p' c = .ok (smallFile p' n) := by
    intro p c es h
    unfold smallHost at h ⊢
    dsimp only at h ⊢
    cases hf : [s%"x.proto", s%"z.proto", s%"b.proto"].find? fun n => c = smallText n with
    | none => rw [hf] at h; cases h
    | some n =>
      rw [hf] at h
      cases h
      exact ⟨n, rfl, fun _ => rfl⟩
  refine ⟨fun filename data elements h config => ?_, fun filename data elements h ρ => ?_⟩
  · obtain ⟨n, rfl, _⟩ := hcases _ _ _ h
    have hflat : ∀ e ∈ smallFile filename n, Flat e := by
      intro e he
      rcases small_mem he with ⟨_, rfl, _⟩ | ⟨_, rfl, _⟩ | ⟨_, rfl, _⟩ <;> trivial
    constructor <;> intro x hx <;> unfold fileNodes at hx <;> rw [flat_nodes hflat] at hx <;>
      obtain ⟨e, he, rfl⟩ := List.mem_map.1 hx
    · rcases small_mem he with ⟨_, rfl, _⟩ | ⟨_, rfl, _⟩ | ⟨_, rfl, _⟩ <;> rfl
    · rcases small_mem he with ⟨s, rfl, h1, _, h2⟩ | ⟨s, rfl, h1, _, h2⟩ | ⟨s, rfl, h1, _, h2⟩ <;>
        exact ⟨h1, fun c hc => by
          have : s.inlineComment = some c := hc
          rw [h2] at this; cases this⟩
  · obtain ⟨n, rfl, h'⟩ := hcases _ _ _ h
    rw [h']
    unfold smallFile newFile newOptions
    rfl

/-- The hypotheses of `C91_command` hold of these files. -/
example : Exec.lintCmd smallHost sampleEnv .stable [s%".."] {} smallWorld = (smallWorld, .ok ()) := by
  obtain ⟨ps, hps, hfiles, hlint⟩ : ∃ ps, getForDirOf exProvider Order.id s%"/w/a" s%".." = .ok ps ∧
      ps.dirPathToFiles = [(s%"/w/a", [⟨s%"/w/a/x.proto", s%"x.proto"⟩, ⟨s%"/w/a/z.proto", s%"z.proto"⟩]),
        (s%"/w", [⟨s%"/w/b.proto", s%"../b.proto"⟩])] ∧
      ps.config.lint = ⟨[], false, [], [], [], [], [], false⟩ :=
    ⟨_, rfl, rfl, rfl⟩
  refine C91_command smallHost exProvider Order.id small_discovers [s%".."] { protoSet := ps }
    ⟨s%"..", .inl rfl, .inl ⟨rfl, hps, rfl⟩⟩ ⟨rfl, by decide, ?_⟩ small_parser (fun _ _ => rfl)
    ⟨⟨_, rfl⟩, fun h => nomatch h⟩ sampleEnv .stable smallWorld ⟨_, rfl⟩ ?_ ?_ s%"uber1" ?_ [] [] ?_ ?_ ?_ ?_ ?_ ?_
  · unfold allFiles
    rw [hfiles]
    simp only [← Exec.Sample.isWithin_iff]
    decide
  · show KnownNames ps.config.lint
    rw [hlint]
    refine ⟨fun g hg => ?_, fun _ h => (nomatch h), fun _ h => (nomatch h), fun _ h => (nomatch h)⟩
    cases hg <;> first | decide | contradiction
  · show ps.config.lint.includeIDs = []
    rw [hlint]
  · show AsksGroup ps.config.lint _
    rw [hlint]
    exact .default rfl rfl
  · show ps.config.lint.fileHeader = []
    rw [hlint]
  · show ps.config.lint.javaPackagePrefix = []
    rw [hlint]
  · exact ⟨by unfold CleanLines; decide, by unfold Trimmed; decide⟩
  · decide +kernel
  · exact fun _ h => nomatch h
  · have hall : ∀ n ∈ [s%"x.proto", s%"z.proto", s%"b.proto"],
        (Quotable n ∧ n ≠ []) ∧ (∀ p, smallHost.parse p (smallText n) = .ok (smallFile p n)) ∧
        ∀ p, readFile (smallText n) = some (bareAll (smallFile p n)) ∧
        (∀ e ∈ smallFile p n, (∃ c, e = .comment c) ∨ commentOf e = none ∧ inlineCommentOf e = none) ∧
        Pleases s%"uber1" s%"foo" ⟨p, smallFile p n, ps.config, smallText n⟩ := by
      intro n hn
      have hq : Quotable n := by
        revert n
        unfold Quotable
        decide
      have hne : n ≠ [] := by
        clear hq
        revert n
        decide
      refine ⟨⟨hq, hne⟩, fun p => ?_, fun p => ⟨?_, fun e he => ?_, ?_⟩⟩
      · have : ([s%"x.proto", s%"z.proto", s%"b.proto"].find? fun m => smallText n = smallText m) = some n := by
          clear hq hne
          revert n
          decide +kernel
        unfold smallHost
        dsimp only
        rw [this]
      · have : bareAll (smallFile p n) = newFile [] false n s%"foo" [] := by
          unfold smallFile newFile newOptions
          rfl
        rw [this]
        exact C87_create [] false n s%"foo" [] ⟨by unfold CleanLines; decide, by unfold Trimmed; decide⟩ (by decide +kernel)
          hq (fun _ h => nomatch h) (by unfold IsWord; decide)
      · rcases small_mem he with ⟨_, rfl, _, h⟩ | ⟨_, rfl, _, h⟩ | ⟨_, rfl, _, h⟩ <;> exact .inr h
      · refine ⟨fun e => absurd e (by decide), fun _ => ⟨?_, by decide +kernel, fun c hc => ?_⟩⟩
        · show ps.config.lint.javaPackagePrefix ∈ _
          rw [hlint]
          simp
        · rcases small_mem hc with ⟨_, h, _⟩ | ⟨_, h, _⟩ | ⟨_, h, _⟩ <;> cases h
    intro p hp
    refine ⟨s%"foo", by unfold IsWord; decide, fun f hf => ?_⟩
    have hp : p ∈ ps.dirPathToFiles := hp
    rw [hfiles] at hp
    have hn : ∃ n ∈ [s%"x.proto", s%"z.proto", s%"b.proto"], base f.displayPath = base n ∧
        smallWorld.disk f.path = some (smallText n) := by
      rcases List.mem_cons.1 hp with rfl | hp
      · rcases List.mem_cons.1 hf with rfl | hf
        · exact ⟨s%"x.proto", by simp, by decide, rfl⟩
        · cases List.mem_singleton.1 hf
          exact ⟨s%"z.proto", by simp, by decide, rfl⟩
      · cases List.mem_singleton.1 hp
        cases List.mem_singleton.1 hf
        exact ⟨s%"b.proto", by simp, by decide, rfl⟩
    obtain ⟨n, hn, hb, hd⟩ := hn
    obtain ⟨⟨h1, h2⟩, h3, h4⟩ := hall n hn
    obtain ⟨h4, h5, h6⟩ := h4 f.displayPath
    exact ⟨smallFile f.displayPath n, n, h1, h2, hb, hd, h3 _, h4, h5, h6⟩

end Verif.Props
