import Verif.Proof.Complaints
import Verif.Props.Settings

/-!
# What a refused configuration is told: C107
-/

namespace Verif.Props

open Verif Str Path Spec Settings

/-- C107: what is said about a refused configuration is the text of a fault that it has, and no
group of faults that comes before has one. -/
theorem C107_says (s : SortSlice) (h : Host) (develMode : Bool) (e : ExternalConfig) (d : Str)
    (hd : IsAbsPath d) (err : Err) (he : externalConfigToConfig s h develMode e d = .error err) :
    ∃ n, Complaint h develMode e d n err ∧ ∀ m < n, ∀ text, ¬ Complaint h develMode e d m text :=
  convert_error s hd he

/-- C107: a configuration with a fault is refused, and if all there is to say about it is one
text, that is what is said. -/
theorem C107_refused (s : SortSlice) (h : Host) (develMode : Bool) (e : ExternalConfig) (d : Str)
    (hd : IsAbsPath d) (n : Nat) (text : Str) (hc : Complaint h develMode e d n text) :
    (∃ err, externalConfigToConfig s h develMode e d = .error err) ∧
    ((∀ m t, Complaint h develMode e d m t → t = text) →
      externalConfigToConfig s h develMode e d = .error text) := by
  rcases externalConfigToConfig_spec s h develMode e hd with ⟨ha, _⟩ | ⟨_, err, he⟩
  · exact absurd ha (complaint_not_acceptable hc)
  · refine ⟨⟨err, he⟩, fun hall => ?_⟩
    obtain ⟨m, hm, _⟩ := convert_error s hd he
    rw [he, hall m err hm]

/-- C107: a configuration is refused exactly if it has a fault. -/
theorem C107_iff (s : SortSlice) (h : Host) (develMode : Bool) (e : ExternalConfig) (d : Str) (hd : IsAbsPath d) :
    (∃ err, externalConfigToConfig s h develMode e d = .error err) ↔ ∃ n text, Complaint h develMode e d n text := by
  constructor
  · rintro ⟨err, he⟩
    obtain ⟨n, hn, _⟩ := convert_error s hd he
    exact ⟨n, err, hn⟩
  · rintro ⟨n, text, hc⟩
    exact (C107_refused s h develMode e d hd n text hc).1

/-- C107: what is said if a directory has no usable configuration. Either the nearest
directory with a configuration file has two of them, and both are named; or its only one can
not be read, or has a fault. It is never the default configuration. -/
theorem C107_found (s : SortSlice) (h : Host) (develMode : Bool) (dirPath : Str) (ha : isAbs dirPath = true)
    (err : Err) (he : getForDir s h develMode dirPath = some (.error err)) :
    (∃ ds, NearestConfig h.stat (clean dirPath) (absPath ds) ∧ err = twoFilesText ds) ∨
    ∃ d p, NearestConfig h.stat (clean dirPath) d ∧ ConfigFile h.stat d p ∧ (∀ q, ConfigFile h.stat d q → q = p) ∧
      (Unread h p err ∨ ∃ e n, Content h p e ∧ Complaint h develMode e d n err ∧
        ∀ m < n, ∀ text, ¬ Complaint h develMode e d m text) := by
  unfold getForDir at he
  obtain ⟨r, hr, ho⟩ := getFilePathForDirOf_outcome h ha
  rw [hr] at he
  rcases ho with ⟨p, d, rfl, hne, hn, hp, hq⟩ | ⟨rfl, hn⟩ | ⟨e', d, p, q, rfl, hn, hp, hq, hpq⟩
  · refine Or.inr ⟨d, p, hn, hp, hq, ?_⟩
    dsimp only at he
    rw [if_neg hne] at he
    injection he with he
    unfold getConfig at he
    obtain ⟨cs, name, hcs, hname, hdc, hpc, _⟩ := id hp
    have hcn : Component name := by
      rcases hname with rfl | rfl
      · exact component_yaml
      · exact component_json
    have hpa : IsAbsPath p := ⟨_, components_snoc hcs hcn, hpc⟩
    have hdir : dir p = d := by rw [hpc, hdc, dir_snoc (components_snoc hcs hcn)]
    rw [show isAbs p = true by rw [hpc]; exact isAbs_absPath _, clean_of_isAbsPath hpa, hdir] at he
    simp only [Bool.not_true, Bool.false_eq_true, if_false] at he
    rcases read_cases hp with ⟨err', h1, h2⟩ | ⟨e, h1, h2⟩
    · rw [h1] at he
      injection he with he
      subst he
      exact Or.inl h2
    · rw [h1] at he
      obtain ⟨n, h3, h4⟩ := convert_error s ⟨cs, hcs, hdc⟩ he
      exact Or.inr ⟨e, n, h2, h3, h4⟩
  · exfalso
    dsimp only at he
    rw [if_pos rfl] at he
    injection he with he
    unfold externalConfigToConfig at he
    have hx : getExcludePrefixes ([] : List Str) dirPath = .ok [] := rfl
    have hf : fileHeaderOf h ({} : ExternalConfig) dirPath = .ok [] := rfl
    have hs := s.perm (fun a b : GenPlugin => Str.lt a.name b.name) []
    rw [List.perm_nil] at hs
    simp only [hx, hf, genPluginsOf, createPackagesOf, hs, finishConfig] at he
    cases develMode <;> cases he
  · obtain ⟨ds, h1, h2⟩ := find_error ha hr
    dsimp only at he
    injection he with he
    injection he with he
    subst he
    exact Or.inl ⟨ds, h1, h2⟩

/-- A configuration with two faults. -/
def faultyConfig : ExternalConfig :=
  { plugins := [{ name := s%"go", type := s%"go", output := s%"gen" }]
    add := [s%"syntax_proto3", s%"PACKAGE_IS_DECLARED", s%"COMMENTS_NO_C_STYLE"]
    remove := [s%"package_is_declared", s%"Syntax_Proto3"] }

/-- Non-vacuity: both faults are complaints, the one of the earlier group is what is said, and
with an import path the other. -/
example :
    Complaint emptyHost false faultyConfig s%"/a" 5 (s%"go plugin go specified but no import path provided") ∧
    Complaint emptyHost false faultyConfig s%"/a" 6
      (s%"config had intersection of [PACKAGE_IS_DECLARED SYNTAX_PROTO3] between lint_include and lint_exclude") ∧
    externalConfigToConfig SortSlice.stable emptyHost false faultyConfig s%"/a" =
      .error (s%"go plugin go specified but no import path provided") ∧
    externalConfigToConfig SortSlice.stable emptyHost false { faultyConfig with importPath := s%"x" } s%"/a" =
      .error (s%"config had intersection of [PACKAGE_IS_DECLARED SYNTAX_PROTO3] between lint_include and lint_exclude") := by
  refine ⟨?_, ?_, by rfl, by rfl⟩
  · exact .pluginImportPath (p := { name := s%"go", type := s%"go", output := s%"gen" }) (List.mem_singleton.2 rfl)
      (Or.inl rfl) rfl
  · refine .rules (ids := [s%"PACKAGE_IS_DECLARED", s%"SYNTAX_PROTO3"]) (by simp) (by unfold StrictlyIncreasing; decide) fun a => ?_
    constructor
    · intro hm
      simp only [List.mem_cons, List.not_mem_nil, or_false] at hm
      rcases hm with rfl | rfl
      · exact ⟨by simp, ⟨s%"PACKAGE_IS_DECLARED", by decide, rfl⟩, s%"package_is_declared", by decide, rfl⟩
      · exact ⟨by simp, ⟨s%"syntax_proto3", by decide, rfl⟩, s%"Syntax_Proto3", by decide, rfl⟩
    · rintro ⟨_, _, x, hx, rfl⟩
      simp only [faultyConfig, List.mem_cons, List.not_mem_nil, or_false] at hx
      rcases hx with rfl | rfl <;> decide

/-- A host with one directory that has two configuration files. -/
def twoConfigs : Host :=
  ⟨fun p => decide (p ∈ [s%"/a/prototool.yaml", s%"/a/prototool.json"]), fun _ => .error [], fun _ => .error []⟩

/-- Non-vacuity: both files of the directory are named. -/
example : getForDir SortSlice.stable twoConfigs false s%"/a/b/c" =
    some (.error (s%"multiple configuration files in the same directory: [/a/prototool.yaml /a/prototool.json]")) ∧
    twoFilesText [s%"a"] =
      s%"multiple configuration files in the same directory: [/a/prototool.yaml /a/prototool.json]" := by
  constructor <;> rfl

end Verif.Props
