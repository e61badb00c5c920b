import Verif.Proof.Settings

/-!
# Configuration files: C50
-/

namespace Verif.Props

open Verif Str Path Spec Settings

/-- C50: a configuration is accepted exactly when it meets the requirements. -/
theorem C50_accepted_iff (s : SortSlice) (h : Host) (develMode : Bool) (e : ExternalConfig) (d : Str)
    (hd : IsAbsPath d) :
    (∃ c, externalConfigToConfig s h develMode e d = .ok c) ↔ Acceptable h develMode e d := by
  rcases externalConfigToConfig_spec s h develMode e hd with ⟨ha, _, _, _, _, hc⟩ | ⟨ha, err, hc⟩
  · exact ⟨fun _ => ha, fun _ => ⟨_, hc⟩⟩
  · constructor
    · rintro ⟨c, hc'⟩; rw [hc] at hc'; cases hc'
    · intro h; exact absurd h ha

/-- C50: paths of an accepted configuration are absolute and clean, and they are the
places the configured paths refer to. -/
theorem C50_paths (s : SortSlice) (h : Host) (develMode : Bool) (e : ExternalConfig) (d : Str)
    (hd : IsAbsPath d) (c : Config) (hc : externalConfigToConfig s h develMode e d = .ok c) :
    c.dirPath = d ∧
    (∀ p, p ∈ c.excludePrefixes ↔ ∃ x ∈ e.excludes, x ≠ [] ∧ p = locate d x) ∧
    (∀ p, p ∈ c.compile.includePaths ↔ ∃ x ∈ e.includes, x ≠ [] ∧ p = locate d x) ∧
    (∀ id p, p ∈ (GoMap.get? c.lint.ignoreIDToFilePaths id).getD [] ↔
      ∃ x ∈ e.ignores, toUpper x.1 = id ∧ ∃ q ∈ x.2, p = locate d q) ∧
    (∀ p, (p ∈ c.excludePrefixes ∨ p ∈ c.compile.includePaths ∨
      (∃ id, p ∈ (GoMap.get? c.lint.ignoreIDToFilePaths id).getD []) ∨
      (∃ g ∈ c.gen.plugins, p = g.outputPath.absPath)) → IsAbsPath p) := by
  rcases externalConfigToConfig_spec s h develMode e hd with ⟨ha, text, gs, ht, hf, hc'⟩ | ⟨ha, err, hc'⟩
  · rw [hc'] at hc
    injection hc with hc
    subst hc
    have h1 : ∀ p, p ∈ (Strs.sortUniq e.excludes).map (locate d) ↔ ∃ x ∈ e.excludes, x ≠ [] ∧ p = locate d x := by
      intro p
      simp only [List.mem_map, mem_sortUniq]
      exact ⟨fun ⟨x, ⟨a, b⟩, c⟩ => ⟨x, a, b, c.symm⟩, fun ⟨x, a, b, c⟩ => ⟨x, ⟨a, b⟩, c.symm⟩⟩
    have h2 : ∀ p, p ∈ includePathsOf e.includes d ↔ ∃ x ∈ e.includes, x ≠ [] ∧ p = locate d x := by
      intro p
      simp only [includePathsOf, List.mem_map, mem_sortUniq, resolve_eq hd]
      exact ⟨fun ⟨x, ⟨a, b⟩, c⟩ => ⟨x, a, b, c.symm⟩, fun ⟨x, a, b, c⟩ => ⟨x, ⟨a, b⟩, c.symm⟩⟩
    have h3 := mem_ignoresOf hd e.ignores
    refine ⟨rfl, h1, h2, h3, ?_⟩
    rintro p (hp | hp | ⟨id, hp⟩ | ⟨g, hg, rfl⟩)
    · obtain ⟨x, _, _, rfl⟩ := (h1 p).1 hp
      exact locate_isAbsPath hd
    · obtain ⟨x, _, _, rfl⟩ := (h2 p).1 hp
      exact locate_isAbsPath hd
    · obtain ⟨x, _, _, q, _, rfl⟩ := (h3 id p).1 hp
      exact locate_isAbsPath hd
    · obtain ⟨p, _, hpf⟩ := pointwise_mem_right hf g ((s.perm _ gs).mem_iff.1 hg)
      rw [hpf.output]
      exact locate_isAbsPath hd
  · rw [hc'] at hc; cases hc

/-- C50: the plugins of an accepted configuration are the configured ones, sorted by
name; rule names are in upper case, sorted, and added and removed ones are disjoint. -/
theorem C50_plugins_rules (s : SortSlice) (h : Host) (develMode : Bool) (e : ExternalConfig) (d : Str)
    (hd : IsAbsPath d) (c : Config) (hc : externalConfigToConfig s h develMode e d = .ok c) :
    (∃ gs, Pointwise (PluginFrom d) e.plugins gs ∧ c.gen.plugins.Perm gs) ∧
    (c.gen.plugins.Pairwise fun a b => Str.lt b.name a.name = false) ∧
    StrictlyIncreasing c.lint.includeIDs ∧ StrictlyIncreasing c.lint.excludeIDs ∧
    (∀ a, a ∈ c.lint.includeIDs ↔ a ≠ [] ∧ ∃ x ∈ e.add, toUpper x = a) ∧
    (∀ a, a ∈ c.lint.excludeIDs ↔ a ≠ [] ∧ ∃ x ∈ e.remove, toUpper x = a) ∧
    (∀ a, a ∈ c.lint.includeIDs → a ∉ c.lint.excludeIDs) := by
  rcases externalConfigToConfig_spec s h develMode e hd with ⟨ha, text, gs, ht, hf, hc'⟩ | ⟨ha, err, hc'⟩
  · rw [hc'] at hc
    injection hc with hc
    subst hc
    have h1 := (C14_sortUniqModify Order.id e.add toUpper).2
    have h2 := (C14_sortUniqModify Order.id e.remove toUpper).2
    refine ⟨⟨gs, hf, s.perm _ gs⟩, s.sorted _ gs ?_, (C14_sortUniqModify Order.id e.add toUpper).1,
      (C14_sortUniqModify Order.id e.remove toUpper).1, h1, h2, ?_⟩
    · exact SWO.str.on (fun g : GenPlugin => g.name)
    · intro a ha1 ha2
      obtain ⟨hne, x, hx, rfl⟩ := (h1 a).1 ha1
      obtain ⟨_, y, hy, hxy⟩ := (h2 _).1 ha2
      refine ha.rules x hx y hy (fun e => hne ?_) hxy.symm
      subst e; rfl
  · rw [hc'] at hc; cases hc

/-- C50: the file header of an accepted configuration: none if none is asked for,
otherwise the trimmed lines of the text; if the text is not said to be commented already,
every line is made a comment. -/
theorem C50_header (s : SortSlice) (h : Host) (develMode : Bool) (e : ExternalConfig) (d : Str)
    (hd : IsAbsPath d) (c : Config) (hc : externalConfigToConfig s h develMode e d = .ok c) :
    (HeaderText h e d none → c.lint.fileHeader = []) ∧
    (∀ t, HeaderText h e d (some t) → c.lint.fileHeader ≠ []) ∧
    (e.fileHeaderIsCommented = false → ∀ t, HeaderText h e d (some t) →
      (∀ line ∈ splitChar '\n' c.lint.fileHeader, line = s%"//" ∨ ∃ rest, line = s%"// " ++ rest) ∧
      (splitChar '\n' c.lint.fileHeader).map (fun l => trimSpace (l.drop 2)) =
        (splitChar '\n' (trimSpace t)).map trimSpace) := by
  have huniq : ∀ a b, HeaderText h e d a → HeaderText h e d b → a = b := by
    intro a b ha hb
    cases ha with
    | none a1 a2 => cases hb <;> first | rfl | contradiction
    | content a1 a2 => cases hb <;> first | rfl | contradiction
    | file a1 a2 a3 a4 =>
      cases hb with
      | none b1 b2 => contradiction
      | content b1 b2 => contradiction
      | file b1 b2 b3 b4 => rw [a4] at b4; injection b4 with b4; rw [b4]
  rcases externalConfigToConfig_spec s h develMode e hd with ⟨ha, text, gs, ht, hf, hc'⟩ | ⟨ha, err, hc'⟩
  · rw [hc'] at hc
    injection hc with hc
    subst hc
    refine ⟨fun hn => ?_, fun t ht' => ?_, fun hcm t ht' => ?_⟩
    · rw [huniq _ _ ht hn]; rfl
    · rw [huniq _ _ ht ht']
      obtain ⟨text', hh, hcm⟩ := ha.header
      rw [huniq _ _ hh ht'] at hcm
      show headerOf e.fileHeaderIsCommented t ≠ []
      unfold headerOf
      cases hx : e.fileHeaderIsCommented with
      | true =>
        simp only [if_true]
        exact headerLines_ne (hcm hx t rfl)
      | false =>
        simp only [Bool.false_eq_true, if_false]
        exact commentLines_ne t
    · rw [huniq _ _ ht ht']
      show (∀ line ∈ splitChar '\n' (headerOf e.fileHeaderIsCommented t), _) ∧
        (splitChar '\n' (headerOf e.fileHeaderIsCommented t)).map (fun l => trimSpace (l.drop 2)) = _
      rw [hcm]
      exact ⟨headerOf_lines t, headerOf_text t⟩
  · rw [hc'] at hc; cases hc

/-- C50: everything else is taken over as it is. -/
theorem C50_rest (s : SortSlice) (h : Host) (develMode : Bool) (e : ExternalConfig) (d : Str)
    (hd : IsAbsPath d) (c : Config) (hc : externalConfigToConfig s h develMode e d = .ok c) :
    c.compile.protobufVersion = e.version ∧ c.compile.allowUnusedImports = e.allowUnusedImports ∧
    c.compile.includeWellKnownTypes = true ∧
    c.lint.group = toLower e.lintGroup ∧ c.lint.noDefault = e.noDefault ∧
    c.lint.javaPackagePrefix = e.javaPackagePrefix ∧ c.lint.allowSuppression = e.allowSuppression ∧
    c.break_ = ⟨e.includeBeta, e.allowBetaDeps⟩ ∧
    c.gen.importPath = e.importPath ∧ c.gen.extraModifiers = e.extraModifiers ∧
    (∀ k, GoMap.get? c.dirPathToBasePackage k =
      (e.createPackages.reverse.find? fun x => locate d x.1 = k).map (·.2)) := by
  rcases externalConfigToConfig_spec s h develMode e hd with ⟨ha, text, gs, ht, hf, hc'⟩ | ⟨ha, err, hc'⟩
  · rw [hc'] at hc
    injection hc with hc
    subst hc
    refine ⟨rfl, rfl, rfl, rfl, rfl, rfl, rfl, rfl, rfl, rfl, fun k => ?_⟩
    exact packagesOf_get? hd ha.packages k
  · rw [hc'] at hc; cases hc

/-- A host without files. -/
def emptyHost : Host :=
  ⟨fun _ => false, fun _ => .error [], fun _ => .error []⟩

/-- A configuration that uses most settings. -/
def someConfig : ExternalConfig :=
  { excludes := [s%"b/c", s%"/a/foo/d/../e"]
    includes := [s%"../inc"]
    createPackages := [(s%"idl", s%"uber")]
    ignores := [(s%"enum_names_camel_case", [s%"x.proto"])]
    add := [s%"packages_lower_snake_case"]
    remove := [s%"MESSAGE_NAMES_CAMEL_CASE"]
    fileHeaderContent := s%" one\n\n two \n"
    importPath := s%"go.uber.org/foo"
    plugins := [{ name := s%"gogo", type := s%"gogo", output := s%"../gen" },
      { name := s%"descriptor_set", output := s%"/out", includeImports := true }] }

/-- Non-vacuity: that configuration is accepted. -/
example : ∃ c, externalConfigToConfig SortSlice.stable emptyHost false someConfig s%"/a/foo" = .ok c ∧
    c.excludePrefixes = [s%"/a/foo/e", s%"/a/foo/b/c"] ∧
    c.lint.fileHeader = s%"// one\n//\n// two" ∧
    c.gen.plugins.map (·.name) = [s%"descriptor_set", s%"gogo"] ∧
    c.gen.plugins.map (·.outputPath.absPath) = [s%"/out", s%"/a/gen"] :=
  ⟨_, rfl, rfl, rfl, rfl, rfl⟩

/-- C50: the check that excludes lie below the directory of the configuration is a
comparison of strings, so that it lets a path pass that is outside: in `/a/foo` the
exclude `../foobar` is accepted. -/
theorem C50_sibling_excluded :
    ∃ c, externalConfigToConfig SortSlice.stable emptyHost false { excludes := [s%"../foobar"] } s%"/a/foo" = .ok c ∧
      c.excludePrefixes = [s%"/a/foobar"] ∧ ¬ Within s%"/a/foobar" s%"/a/foo" := by
  refine ⟨_, rfl, rfl, ?_⟩
  have h1 : Components [s%"a", s%"foobar"] := by
    intro c hc
    simp only [List.mem_cons, List.not_mem_nil, or_false] at hc
    rcases hc with rfl | rfl <;> refine ⟨by decide, by decide, by decide, by decide⟩
  have h2 : Components [s%"a", s%"foo"] := by
    intro c hc
    simp only [List.mem_cons, List.not_mem_nil, or_false] at hc
    rcases hc with rfl | rfl <;> refine ⟨by decide, by decide, by decide, by decide⟩
  intro h
  have := (within_iff h1 h2).1 h
  exact absurd this (by decide)

/-- C50: excludes that are relative and do not go up are below the directory. -/
theorem C50_excludes_below (s : SortSlice) (h : Host) (develMode : Bool) (e : ExternalConfig) (d : Str)
    (hd : IsAbsPath d) (c : Config) (hc : externalConfigToConfig s h develMode e d = .ok c)
    (hrel : ∀ x ∈ e.excludes, x ≠ [] → isAbs x = false ∧ s%".." ∉ splitChar '/' x) :
    ∀ p ∈ c.excludePrefixes, Below p d := by
  rcases externalConfigToConfig_spec s h develMode e hd with ⟨ha, text, gs, ht, hf, hc'⟩ | ⟨ha, err, hc'⟩
  · rw [hc'] at hc
    injection hc with hc
    subst hc
    exact excludesBelow_getExcludePrefixes hd hrel ((getExcludePrefixes_iff hd _ _).2 ⟨ha.excludes, rfl⟩)
  · rw [hc'] at hc; cases hc

end Verif.Props
