import Verif.Proof.LintConfig
import Verif.Props.Settings

/-!
# The rules that run and the lint groups: C23, C24
-/

namespace Verif.Props

open Verif Str Spec Lint

/-- C24: the registered rules are the documented ones, and their names are unique. -/
theorem C24_rules (env : Env) :
    ((allLinters env).map (·.id)).Nodup ∧ ∀ id, id ∈ (allLinters env).map (·.id) ↔ DocRule id := by
  rw [allLinters_ids]
  exact ⟨allIDs_nodup, fun _ => mem_allIDs⟩

/-- C24: the groups are the documented ones, and every group has exactly the rules the
documentation assigns to it, each once, all of them registered. -/
theorem C24_groups (env : Env) :
    (∀ g, (∃ ls, GoMap.get? (groupToLinters env) g = some ls) ↔ g ∈ docGroups) ∧
    ∀ g ls, GoMap.get? (groupToLinters env) g = some ls →
      (∀ l ∈ ls, l ∈ allLinters env) ∧ (ls.map (·.id)).Nodup ∧
      ∀ id, id ∈ ls.map (·.id) ↔ DocInGroup g id := by
  refine ⟨fun g => ?_, fun g ls h => ?_⟩
  · have := groupToLinters_none env g
    constructor
    · rintro ⟨ls, h⟩
      apply Classical.not_not.1
      intro hn
      rw [this.2 hn] at h; cases h
    · intro h
      cases hg : GoMap.get? (groupToLinters env) g with
      | some ls => exact ⟨ls, rfl⟩
      | none => exact absurd h (this.1 hg)
  · have := groupToLinters_ok env h
    exact ⟨this.sub, this.ids.nodup_iff.2 (docGroupIDs_nodup g), fun id => by
      rw [this.ids.mem_iff, mem_docGroupIDs]⟩

/-- Non-vacuity: `uber2` has a rule that `uber1` lacks and the other way round. -/
example : DocInGroup s%"uber2" s%"IMPORTS_NOT_WEAK" ∧ ¬ DocInGroup s%"uber1" s%"IMPORTS_NOT_WEAK" ∧
    DocInGroup s%"uber1" s%"ENUM_FIELD_PREFIXES" ∧ ¬ DocInGroup s%"uber2" s%"ENUM_FIELD_PREFIXES" := by
  simp only [← mem_docGroupIDs]
  decide +kernel

/-- C23: the linters are chosen exactly when all names in the configuration exist,
otherwise the result is an error. -/
theorem C23_known_names (env : Env) (c : Settings.LintConfig) :
    (∃ ls, getLinters env c = .ok ls) ↔ KnownNames c := by
  rcases getLinters_spec env c with ⟨hk, ls, h, _⟩ | ⟨hk, e, h⟩
  · exact ⟨fun _ => hk, fun _ => ⟨ls, h⟩⟩
  · refine ⟨fun ⟨ls, h'⟩ => ?_, fun h' => absurd h' hk⟩
    rw [h] at h'; cases h'

/-- C23: the linters that run are the registered linters the configuration asks for, each
once. -/
theorem C23_linters (env : Env) (c : Settings.LintConfig) (ls : List Linter)
    (h : getLinters env c = .ok ls) :
    (∀ l ∈ ls, l ∈ allLinters env) ∧ (ls.map (·.id)).Nodup ∧
    ∀ id, id ∈ ls.map (·.id) ↔ AsksRule c id := by
  rcases getLinters_spec env c with ⟨_, ls', h', hr⟩ | ⟨_, e, h'⟩
  · rw [h] at h'; cases h'; exact hr
  · rw [h] at h'; cases h'

/-- C23, for a configuration file: the rules that run are those of the group plus
`rules.add` minus `rules.remove`, written in any case. -/
theorem C23_from_file (s : SortSlice) (host : Settings.Host) (develMode : Bool)
    (e : Settings.ExternalConfig) (d : Str) (hd : IsAbsPath d) (c : Settings.Config)
    (hc : Settings.externalConfigToConfig s host develMode e d = .ok c)
    (env : Env) (ls : List Linter) (h : getLinters env c.lint = .ok ls) (id : Str) :
    id ∈ ls.map (·.id) ↔
      (DocInGroup (if e.lintGroup ≠ [] then toLower e.lintGroup
          else if e.noDefault then s%"empty" else s%"uber1") id ∨
        (id ≠ [] ∧ ∃ x ∈ e.add, toUpper x = id)) ∧
      ¬ ∃ x ∈ e.remove, toUpper x = id := by
  obtain ⟨_, _, _, _, ha, hr, _⟩ := C50_plugins_rules s host develMode e d hd c hc
  obtain ⟨_, _, _, hg, hn, _⟩ := C50_rest s host develMode e d hd c hc
  rw [(C23_linters env c.lint ls h).2.2, AsksRule, ha, hr]
  have hgroup : (∃ g, AsksGroup c.lint g ∧ DocInGroup g id) ↔
      DocInGroup (if e.lintGroup ≠ [] then toLower e.lintGroup
          else if e.noDefault then s%"empty" else s%"uber1") id := by
    have hempty : toLower e.lintGroup = [] ↔ e.lintGroup = [] := by
      cases e.lintGroup <;> simp [toLower]
    by_cases h1 : e.lintGroup = []
    · have h1' : c.lint.group = [] := by rw [hg]; exact hempty.2 h1
      simp only [h1, ne_eq, not_true_eq_false, if_false]
      cases h2 : e.noDefault with
      | true =>
        have k : AsksGroup c.lint s%"empty" := .off h1' (hn.trans h2)
        exact ⟨fun ⟨g, hg, hd⟩ => by rw [← hg.unique k]; exact hd, fun hd => ⟨_, k, hd⟩⟩
      | false =>
        have k : AsksGroup c.lint s%"uber1" := .default h1' (hn.trans h2)
        exact ⟨fun ⟨g, hg, hd⟩ => by rw [← hg.unique k]; exact hd, fun hd => ⟨_, k, hd⟩⟩
    · have h1' : c.lint.group ≠ [] := by rw [hg]; exact fun h => h1 (hempty.1 h)
      simp only [ne_eq, h1, not_false_eq_true, if_true]
      have k : AsksGroup c.lint (toLower e.lintGroup) := by rw [← hg]; exact .named h1'
      exact ⟨fun ⟨g, hg, hd⟩ => by rw [← hg.unique k]; exact hd, fun hd => ⟨_, k, hd⟩⟩
  rw [hgroup]
  by_cases h0 : id = []
  · subst h0
    have hno : ∀ g, ¬ DocInGroup g [] := by
      rintro g ⟨row, hrow, hid, _⟩
      have : ∀ row ∈ docRules, row.1 ≠ [] := by decide +kernel
      exact this row hrow hid
    constructor
    · rintro ⟨hx | hx, _⟩
      · exact absurd hx (hno _)
      · exact absurd rfl hx.1
    · rintro ⟨hx | hx, _⟩
      · exact absurd hx (hno _)
      · exact absurd rfl hx.1
  · simp only [ne_eq, h0, not_false_eq_true, true_and]

/-- C23, for a configuration file: every name must exist. An entry of `ignores` counts if
it lists a file. -/
theorem C23_from_file_known (s : SortSlice) (host : Settings.Host) (develMode : Bool)
    (e : Settings.ExternalConfig) (d : Str) (hd : IsAbsPath d) (c : Settings.Config)
    (hc : Settings.externalConfigToConfig s host develMode e d = .ok c)
    (env : Env) (ls : List Linter) (h : getLinters env c.lint = .ok ls) :
    (e.lintGroup ≠ [] → toLower e.lintGroup ∈ docGroups) ∧
    (∀ x ∈ e.add, x ≠ [] → DocRule (toUpper x)) ∧
    (∀ x ∈ e.remove, x ≠ [] → DocRule (toUpper x)) ∧
    (∀ x ∈ e.ignores, x.2 ≠ [] → DocRule (toUpper x.1)) := by
  obtain ⟨_, _, _, _, ha, hr, _⟩ := C50_plugins_rules s host develMode e d hd c hc
  obtain ⟨_, _, _, hg, hn, _⟩ := C50_rest s host develMode e d hd c hc
  obtain ⟨_, _, _, hi, _⟩ := C50_paths s host develMode e d hd c hc
  have hk := (C23_known_names env c.lint).1 ⟨ls, h⟩
  have hup : ∀ x : Str, x ≠ [] → toUpper x ≠ [] := by
    intro x hx; cases x <;> simp_all [toUpper]
  refine ⟨fun hne => ?_, fun x hx hne => ?_, fun x hx hne => ?_, fun x hx hne => ?_⟩
  · rw [← hg]
    refine hk.group _ (.named ?_)
    rw [hg]
    cases hl : e.lintGroup with
    | nil => exact absurd hl hne
    | cons a b => simp [toLower]
  · exact hk.add _ ((ha _).2 ⟨hup x hne, x, hx, rfl⟩)
  · exact hk.remove _ ((hr _).2 ⟨hup x hne, x, hx, rfl⟩)
  · obtain ⟨q, hq⟩ := List.exists_mem_of_ne_nil _ hne
    have := (hi (toUpper x.1) (locate d q)).2 ⟨x, hx, rfl, q, hq, rfl⟩
    cases hget : GoMap.get? c.lint.ignoreIDToFilePaths (toUpper x.1) with
    | none => rw [hget] at this; cases this
    | some ps => exact hk.ignores _ (GoMap.get?_some_mem hget)

/-- An environment for examples. -/
def sampleEnv : Env := ⟨Order.rev, fun s => s, fun _ => [], fun _ => [], fun _ => []⟩

/-- A lint configuration with group, added and removed rules. -/
def sampleLint : Settings.LintConfig :=
  { group := s%"google", noDefault := false, includeIDs := [s%"SYNTAX_PROTO3"],
    excludeIDs := [s%"FILE_HEADER"], ignoreIDToFilePaths := [(s%"SYNTAX_PROTO3", [s%"/a/b.proto"])],
    fileHeader := [], javaPackagePrefix := [], allowSuppression := false }

/-- Non-vacuity: eleven rules of `google`, one added and one removed. -/
example : ∃ ls, getLinters sampleEnv sampleLint = .ok ls ∧ ls.length = 11 ∧
    s%"SYNTAX_PROTO3" ∈ ls.map (·.id) ∧ s%"FILE_HEADER" ∉ ls.map (·.id) := by
  have hk : KnownNames sampleLint := by
    refine ⟨fun g hg => ?_, ?_, ?_, ?_⟩
    · cases hg <;> first | decide | contradiction
    all_goals intro x hx; rw [List.mem_singleton.1 hx, ← mem_allIDs]; decide +kernel
  obtain ⟨ls, h⟩ := (C23_known_names sampleEnv sampleLint).2 hk
  obtain ⟨_, hn, hids⟩ := C23_linters sampleEnv sampleLint ls h
  refine ⟨ls, h, ?_, (hids _).2 ⟨.inr (by decide), by decide⟩, fun hx => ((hids _).1 hx).2 (by decide)⟩
  have hp : (ls.map (·.id)).Perm
      (s%"SYNTAX_PROTO3" :: (docGroupIDs s%"google").filter (· ≠ s%"FILE_HEADER")) := by
    refine (List.perm_ext_iff_of_nodup hn ?_).2 fun id => ?_
    · decide +kernel
    · rw [hids, AsksRule, List.mem_cons, List.mem_filter, mem_docGroupIDs]
      have hg : (∃ g, AsksGroup sampleLint g ∧ DocInGroup g id) ↔ DocInGroup s%"google" id :=
        ⟨fun ⟨g, hg, hd⟩ => by cases hg <;> first | exact hd | contradiction,
          fun hd => ⟨_, .named (by decide), hd⟩⟩
      rw [hg]
      simp only [sampleLint, List.mem_singleton, decide_eq_true_eq]
      constructor
      · rintro ⟨h1 | h1, h2⟩
        · exact .inr ⟨h1, h2⟩
        · exact .inl h1
      · rintro (h1 | ⟨h1, h2⟩)
        · exact ⟨.inr h1, by rw [h1]; decide⟩
        · exact ⟨.inl h1, h2⟩
  have := hp.length_eq
  rw [List.length_map] at this
  rw [this]
  decide +kernel

/-- Non-vacuity: an unknown rule is an error. -/
example : ¬ KnownNames { sampleLint with excludeIDs := [s%"NO_SUCH_RULE"] } := by
  intro h
  have := mem_allIDs.2 (h.remove s%"NO_SUCH_RULE" (by decide))
  exact absurd this (by decide +kernel)

end Verif.Props
