import Verif.Proof.RuleChange
import Verif.Props.LintRun

/-!
# C100: rules do not depend on one another, nor on settings of other rules

`under c ps` are the files of `ps` under the configuration `c`.
-/

namespace Verif.Props

open Verif Proto Lint Spec

/-- C100: of two runs on the same files, under configurations that both ask for a rule and say the same of it, both
report the same failures under the name of this rule. Whatever else differs, the group, the rules added and removed,
the ignores of other rules, the file header and so on, does not matter. -/
theorem C100_rule (env : Env) (host : Host) (ps : File.ProtoSet) (absolutePaths : Bool)
    (hs : Sound host ps absolutePaths) (c' : Settings.Config) (rule : Str)
    (hsame : SameFor rule ps.config c') (ha : AsksRule ps.config.lint rule) (ha' : AsksRule c'.lint rule)
    (fs fs' : List Text.Failure) (h : run env host ps absolutePaths = some (.ok fs))
    (h' : run env host (under c' ps) absolutePaths = some (.ok fs')) :
    fs'.filter (·.lintID = rule) = fs.filter (·.lintID = rule) := by
  have order : ∀ {gs}, InOrder gs → InOrder (gs.filter (·.lintID = rule)) := fun h => List.Pairwise.filter _ h
  have sorted : ∀ {ps : File.ProtoSet} (_ : Sound host ps absolutePaths) {gs},
      run env host ps absolutePaths = some (.ok gs) → InOrder gs := by
    intro ps hs gs hg
    obtain ⟨_, _, _, rfl⟩ := (run_dirs_iff hs).1 hg
    exact (C18_sorted _).2
  have hperm : (fs'.filter (·.lintID = rule)).Perm (fs.filter (·.lintID = rule)) := by
    rw [List.perm_iff_count]
    intro f
    by_cases hf : f.lintID = rule
    · rw [List.count_filter (by simpa using hf), List.count_filter (by simpa using hf)]
      subst hf
      exact run_same hs h h' hsame ha ha'
    · rw [List.count_eq_zero.2, List.count_eq_zero.2] <;>
        exact fun hm => hf (by simpa using (List.mem_filter.1 hm).2)
  rw [C18_unique _ _ hperm (order (sorted (sound_under hs hsame.dir) h'))]
  exact (C18_unique _ _ (List.Perm.refl _) (order (sorted hs h))).symm

open Classical in
/-- C100: if rules are taken away, and nothing else changes for those that stay, the run reports exactly what it
reported before under the names of those that stay. -/
theorem C100_fewer (env : Env) (host : Host) (ps : File.ProtoSet) (absolutePaths : Bool)
    (hs : Sound host ps absolutePaths) (c' : Settings.Config) (hdir : c'.dirPath = ps.config.dirPath)
    (hk : KnownNames c'.lint)
    (hsub : ∀ rule, AsksRule c'.lint rule → AsksRule ps.config.lint rule ∧ SameFor rule ps.config c')
    (fs : List Text.Failure) (h : run env host ps absolutePaths = some (.ok fs)) :
    run env host (under c' ps) absolutePaths =
      some (.ok (fs.filter fun f => decide (AsksRule c'.lint f.lintID))) :=
  run_fewer hs h hdir hk hsub

theorem asks_only (rule : Str) (c : Settings.Config) (id : Str) :
    AsksRule (onlyRule rule c).lint id ↔ id = rule := by
  unfold AsksRule
  constructor
  · rintro ⟨⟨g, hg, hd⟩ | h, _⟩
    · cases hg with
      | named h => exact absurd rfl h
      | default _ h => cases h
      | off =>
        exact absurd hd (by
          intro hd
          have hm := (mem_docGroupIDs (g := s%"empty") (id := id)).2 hd
          have : docGroupIDs s%"empty" = [] := by decide +kernel
          rw [this] at hm
          cases hm)
    · exact List.mem_singleton.1 h
  · rintro rfl
    exact ⟨.inr (List.mem_singleton.2 rfl), fun h => nomatch h⟩

/-- C100: a rule that runs alone reports exactly what it reports among others. -/
theorem C100_alone (env : Env) (host : Host) (ps : File.ProtoSet) (absolutePaths : Bool)
    (hs : Sound host ps absolutePaths) (fs : List Text.Failure)
    (h : run env host ps absolutePaths = some (.ok fs)) (rule : Str) (ha : AsksRule ps.config.lint rule) :
    run env host (under (onlyRule rule ps.config) ps) absolutePaths =
      some (.ok (fs.filter (·.lintID = rule))) := by
  have hdoc : DocRule rule := by
    obtain ⟨ls, hl, _⟩ := (run_dirs_iff hs).1 h
    obtain ⟨g1, _, g3⟩ := getLinters_of hl
    obtain ⟨l, hlm, rfl⟩ := List.mem_map.1 ((g3 _).2 ha)
    exact ((C24_rules env).2 _).1 (List.mem_map_of_mem (g1 l hlm))
  have hk0 : KnownNames ps.config.lint := by
    obtain ⟨ls, hl, _⟩ := (run_dirs_iff hs).1 h
    rcases getLinters_spec env ps.config.lint with ⟨h1, _⟩ | ⟨_, e, h1⟩
    · exact h1
    · rw [hl] at h1; cases h1
  have hk : KnownNames (onlyRule rule ps.config).lint := by
    refine ⟨fun g hg => ?_, fun id hid => ?_, fun id hid => (nomatch hid), hk0.ignores⟩
    · cases hg with
      | named h => exact absurd rfl h
      | default _ h => cases h
      | off => decide
    · cases List.mem_singleton.1 hid
      exact hdoc
  rw [C100_fewer env host ps absolutePaths hs (onlyRule rule ps.config) rfl hk ?_ fs h]
  · congr 2
    refine List.filter_congr fun f _ => ?_
    rw [decide_eq_decide]
    exact asks_only rule ps.config f.lintID
  · intro r hr
    rw [(asks_only rule ps.config r).1 hr]
    exact ⟨ha, rfl, rfl, fun _ => rfl, fun _ => rfl, fun _ => rfl⟩

/-- C100: a run says nothing else than what its rules say alone. -/
theorem C100_union (env : Env) (host : Host) (ps : File.ProtoSet) (absolutePaths : Bool)
    (hs : Sound host ps absolutePaths) (fs : List Text.Failure)
    (h : run env host ps absolutePaths = some (.ok fs)) (f : Text.Failure) :
    f ∈ fs ↔ ∃ rule, AsksRule ps.config.lint rule ∧ ∃ gs,
      run env host (under (onlyRule rule ps.config) ps) absolutePaths = some (.ok gs) ∧ f ∈ gs := by
  constructor
  · intro hf
    have ha := (run_about hs h f hf).1
    exact ⟨_, ha, _, C100_alone env host ps absolutePaths hs fs h _ ha,
      List.mem_filter.2 ⟨hf, by simp⟩⟩
  · rintro ⟨rule, ha, gs, hg, hf⟩
    rw [C100_alone env host ps absolutePaths hs fs h _ ha] at hg
    cases hg
    exact (List.mem_filter.1 hf).1

/-! ## These theorems are about something -/

/-- What a run of `twoFiles` under another configuration reports: rules and files. -/
def reportedUnder (f : Settings.LintConfig → Settings.LintConfig) : Option (Option (List (Str × Str))) :=
  (run sampleEnv twoFilesHost (under { twoFiles.config with lint := f twoFiles.config.lint } twoFiles) true).map
    fun r => r.toOption.map (·.map fun f => (f.lintID, f.filename))

/-- One rule alone. -/
example : (run sampleEnv twoFilesHost (under (onlyRule s%"PACKAGES_SAME_IN_DIR" twoFiles.config) twoFiles) true).map
    (fun r => r.toOption.map (·.map fun f => (f.lintID, f.filename))) = some (some
      [(s%"PACKAGES_SAME_IN_DIR", s%"/r/a.proto"), (s%"PACKAGES_SAME_IN_DIR", s%"/r/b.proto")]) := by
  decide +kernel

/-- Other rules, another file header, suppression: the failures of the rule that stays are those of `twoFiles`. -/
example : reportedUnder (fun c => { c with
      includeIDs := [s%"PACKAGES_SAME_IN_DIR", s%"FILE_HEADER"], fileHeader := s%"// x", allowSuppression := true }) =
    some (some [(s%"FILE_HEADER", s%"/r/a.proto"), (s%"PACKAGES_SAME_IN_DIR", s%"/r/a.proto"),
      (s%"FILE_HEADER", s%"/r/b.proto"), (s%"PACKAGES_SAME_IN_DIR", s%"/r/b.proto")]) := by
  decide +kernel

/-- The hypotheses of `C100_rule` hold of these runs. -/
example : Sound twoFilesHost twoFiles true ∧
    SameFor s%"PACKAGES_SAME_IN_DIR" twoFiles.config { twoFiles.config with lint := { twoFiles.config.lint with
      includeIDs := [s%"PACKAGES_SAME_IN_DIR", s%"FILE_HEADER"], fileHeader := s%"// x", allowSuppression := true } } ∧
    AsksRule twoFiles.config.lint s%"PACKAGES_SAME_IN_DIR" :=
  ⟨twoFiles_sound true, ⟨rfl, rfl, fun h => absurd h (by decide), fun h => absurd h (by decide),
    fun h => absurd h (by decide)⟩, .inr (by decide), fun h => nomatch h⟩

end Verif.Props
