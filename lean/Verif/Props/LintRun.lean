import Verif.Proof.LintTotal
import Verif.Proof.GenIgnores
import Verif.Props.LintConfig
import Verif.Spec.Sample

/-!
# C25, C26, C27, C33: whole lint runs

`run` is a whole lint run: the rules chosen by the configuration, on the parsed files of every
directory, with the files ignored for a rule left out, the failures sorted. `none` is a crash
or an endless loop.
-/

namespace Verif.Props

open Verif Proto Lint Spec

/-! ## C33: no crash -/

/-- C33: every rule but one reports on every list of parsed files: it does not crash and does
not fail. What it reports is under its name and in one of the files. Missing: the remaining
rule, for which the claim is false (`C33_http_crash`). -/
theorem C33_no_panic_partial (env : Env) (l : Linter) (hl : l ∈ allLinters env)
    (hn : l.id ≠ httpRule) (dirPath : Str) (ds : List FileDescriptor) (hp : ∀ d ∈ ds, Parsed d) :
    ∃ fs, l.check dirPath ds = some (.ok fs) ∧
      ∀ f ∈ fs, f.lintID = l.id ∧ ∃ d ∈ ds, f.filename = d.filename :=
  check_ok hl dirPath hp fun h => absurd h hn

/-- C33, the remaining rule: it crashes exactly when an option of a file or of a service begins
with `(.google.api.http)`, and otherwise reports. -/
theorem C33_http_crash (env : Env) (l : Linter) (hl : l ∈ allLinters env)
    (hi : l.id = httpRule) (dirPath : Str) (ds : List FileDescriptor) (hp : ∀ d ∈ ds, Parsed d) :
    (l.check dirPath ds = none ↔ ∃ d ∈ ds, ∃ o ∈ outerOptions d, s%"(.google.api.http)" <+: o.name) ∧
    (l.check dirPath ds ≠ none → ∃ fs, l.check dirPath ds = some (.ok fs)) := by
  have he : l = rpcOptionsNoGoogleAPIHTTPLinter := by
    cases rule_all env l hl with
    | file _ hn => exact absurd hi hn
    | http _ he => exact he
    | dir h =>
      have := h.directory
      rw [hi] at this
      exact absurd this (by decide)
  have hcrash := he ▸ http_crash (dirPath := dirPath) fun d hd => (hp d hd).grammar
  refine ⟨hcrash.trans ?_, fun h => ?_⟩
  · refine exists_congr fun d => and_congr_right fun _ => ?_
    unfold NoOuterHTTP
    exact ⟨fun h => Classical.byContradiction fun hn => h fun o ho hx => hn ⟨o, ho, hx⟩,
      fun ⟨o, ho, hx⟩ h => h o ho hx⟩
  · obtain ⟨fs, h1, _⟩ := check_ok hl dirPath hp fun _ d hd => Classical.byContradiction fun hn =>
      h (hcrash.2 ⟨d, hd, hn⟩)
    exact ⟨fs, h1⟩

/-- `option (.google.api.http) = "x";` at the top of a file. -/
def crashingFile : FileDescriptor := Sample.file s%"a.proto"
  [.option { name := s%"(.google.api.http)", constant := .plain s%"x", position := ⟨s%"a.proto", 1, 1⟩ }]

/-- C33 is false of the code: a parsed file on which a rule crashes. -/
theorem C33_not (env : Env) : ∃ l ∈ allLinters env, ∃ d, Parsed d ∧ l.check [] [d] = none := by
  have hp : Parsed crashingFile := ⟨by decide +kernel, by unfold Placed; decide +kernel, by decide +kernel⟩
  have hm : httpRule ∈ (allLinters env).map (·.id) := by
    rw [allLinters_ids]
    decide +kernel
  obtain ⟨l, hl, hi⟩ := List.mem_map.1 hm
  refine ⟨l, hl, crashingFile, hp, ?_⟩
  refine (C33_http_crash env l hl hi [] [crashingFile] fun d hd => ?_).1.2 ?_
  · rw [List.mem_singleton.1 hd]; exact hp
  · exact ⟨_, List.mem_singleton.2 rfl, by decide +kernel⟩

/-- C33 for whole runs: if the names in the configuration exist and the files of the run can be
parsed, the run succeeds, unless that rule is on and there is such an option. -/
theorem C33_run_partial (env : Env) (host : Host) (ps : File.ProtoSet) (absolutePaths : Bool)
    (hs : Sound host ps absolutePaths) (hk : KnownNames ps.config.lint)
    (hparse : ∀ f ∈ filesOf ps, ∃ elements data,
      host.parse f.path (nameIn absolutePaths f) = .ok (elements, data) ∧
      (AsksRule ps.config.lint httpRule →
        NoOuterHTTP ⟨nameIn absolutePaths f, elements, ps.config, data⟩)) :
    ∃ fs, run env host ps absolutePaths = some (.ok fs) :=
  run_total hs hk hparse

/-! ## C27: order -/

/-- C27: the failures do not depend on the order in which the maps of directories, rules and
groups, and the maps inside of rules, are iterated. -/
theorem C27_iteration_order (env : Env) (o : Order) (host : Host) (ps : File.ProtoSet)
    (absolutePaths : Bool) (fs : List Text.Failure) :
    run { env with order := o } host ps absolutePaths = some (.ok fs) ↔
      run env host ps absolutePaths = some (.ok fs) :=
  ⟨fun h => run_order (env := { env with order := o }) env.order h, fun h => run_order o h⟩

/-- C27: the failures do not depend on the order in which the directories are listed. -/
theorem C27_directory_order (env : Env) (host : Host) (ps : File.ProtoSet)
    (absolutePaths : Bool) (dirs : GoMap Str (List File.ProtoFile))
    (hp : dirs.Perm ps.dirPathToFiles) (fs : List Text.Failure) :
    run env host { ps with dirPathToFiles := dirs } absolutePaths = some (.ok fs) ↔
      run env host ps absolutePaths = some (.ok fs) :=
  ⟨fun h => run_perm (ps := { ps with dirPathToFiles := dirs }) (ps' := ps) rfl rfl hp.symm h,
    fun h => run_perm (ps := ps) (ps' := { ps with dirPathToFiles := dirs }) rfl rfl hp h⟩

/-! ## C25: ignores -/

/-- C25: given a run without ignores and any ignores for existing rules, the run under these
ignores succeeds. Ignored failures are not in it. Any other failure is there as often as
without ignores. Missing: for the rules that compare the files of a directory the second half
is false (`C25_not_only`); what holds for them is `C25_as_if_absent`. -/
theorem C25_ignores_partial (env : Env) (host : Host) (ps : File.ProtoSet) (absolutePaths : Bool)
    (hs : Sound host ps absolutePaths) (ignores : GoMap Str (List Str))
    (hk : ∀ p ∈ ignores, DocRule p.1) (gs : List Text.Failure)
    (hg : run env host (ignoring [] ps) absolutePaths = some (.ok gs)) :
    ∃ fs, run env host (ignoring ignores ps) absolutePaths = some (.ok fs) ∧
      (∀ f, Ignored host ps.config.dirPath ignores f → f ∉ fs) ∧
      ∀ f, f.lintID ∉ directoryRules → ¬ Ignored host ps.config.dirPath ignores f →
        fs.count f = gs.count f := by
  obtain ⟨fs, h1, h2, h3⟩ := ignoring_spec hs hk hg
  exact ⟨fs, h1, fun f hi hf => h2 f hf hi, h3⟩

/-- C25, all rules: what a rule reports under the ignores is what it reports if the files that
are ignored for it are not there. -/
theorem C25_as_if_absent (env : Env) (host : Host) (ps : File.ProtoSet) (absolutePaths : Bool)
    (hs : Sound host ps absolutePaths) (ignores : GoMap Str (List Str))
    (hk : ∀ p ∈ ignores, DocRule p.1) (gs : List Text.Failure)
    (hg : run env host (ignoring [] ps) absolutePaths = some (.ok gs)) :
    ∃ fs, run env host (ignoring ignores ps) absolutePaths = some (.ok fs) ∧ ∀ rule, ∃ rs,
      run env host (ignoring [] (without host ignores rule absolutePaths ps)) absolutePaths =
        some (.ok rs) ∧
      ∀ f, f.lintID = rule → fs.count f = rs.count f :=
  ignoring_without hs hk hg

/-! ## C26: generated ignores -/

/-- C26: if the run without ignores succeeds then generating ignores succeeds, and the run under
a configuration with the generated ignores reports nothing. Both runs name the files by their
absolute paths; `C26_generated_ignores` is about runs that name them as they were given. -/
theorem C26_absolute (env : Env) (host : Host) (ps : File.ProtoSet)
    (hs : Sound host ps true)
    (habs : ∀ p ∈ ps.dirPathToFiles, ∀ f ∈ p.2, Path.isAbs f.path = true)
    (gs : List Text.Failure) (hg : run env host (ignoring [] ps) true = some (.ok gs)) :
    ∃ r, generateIgnores env host ps = some (.ok r) ∧
      (r = none ↔ gs = []) ∧
      ∀ e, r = some e →
        run env host (ignoring (Settings.ignoresOf e.ignores ps.config.dirPath) ps) true =
          some (.ok []) := by
  rcases generated_clean hs habs hg with ⟨h1, h2⟩ | ⟨e, h1, h2, h3⟩
  · exact ⟨none, h2, ⟨fun _ => h1, fun _ => rfl⟩, fun _ h => nomatch h⟩
  · refine ⟨some e, h1, ⟨fun h => (nomatch h), fun h => ?_⟩, fun e' he => ?_⟩
    · exfalso
      subst h
      unfold generateIgnores at h1
      have hg' : run env host { ps with config := { ps.config with
          lint := { ps.config.lint with ignoreIDToFilePaths := [] } } } true = some (.ok []) := hg
      dsimp only at h1
      rw [hg'] at h1
      cases h1
    · cases he
      exact ignoring_all hs h3 hg h2

/-! ## These theorems are about something -/

/-- A disk with `/r/a.proto`, of package `p`, and `/r/b.proto`, of package `q`. -/
def twoFilesHost : Host where
  parse path filename := .ok ([.package
    { name := if path = s%"/r/b.proto" then s%"q" else s%"p", position := ⟨filename, 1, 1⟩ }], [])
  abs name := .ok (s%"/r/" ++ name)

/-- A lint run on both files, with one rule on single files and one on directories. -/
def twoFiles : File.ProtoSet where
  workDirPath := s%"/r"
  dirPath := s%"/r"
  dirPathToFiles := [(s%"/r", [⟨s%"/r/a.proto", s%"a.proto"⟩, ⟨s%"/r/b.proto", s%"b.proto"⟩])]
  config := { Sample.config with
    dirPath := s%"/r"
    lint := { Sample.config.lint with
      noDefault := true
      includeIDs := [s%"PACKAGES_SAME_IN_DIR", s%"FILE_OPTIONS_REQUIRE_GO_PACKAGE"] } }

theorem twoFiles_sound (absolutePaths : Bool) : Sound twoFilesHost twoFiles absolutePaths := by
  have hbelow : ∀ name ∈ [s%"a.proto", s%"b.proto"], Below (s%"/r/" ++ name) s%"/r" := by
    intro name hn
    refine ⟨[s%"r"], [name], ?_, by simp, rfl, by simp [absPath]⟩
    unfold Components Component
    rcases List.mem_cons.1 hn with rfl | hn
    · decide
    · cases List.mem_singleton.1 hn
      decide
  refine ⟨?_, ?_⟩
  · intro path filename elements data h config
    cases h
    constructor <;> intro n hn <;> cases List.mem_singleton.1 hn
    · rfl
    · exact ⟨rfl, fun _ h => nomatch h⟩
  · intro p hp f hf
    cases List.mem_singleton.1 hp
    rcases List.mem_cons.1 hf with rfl | hf
    · cases absolutePaths
      · exact ⟨by decide, _, rfl, hbelow s%"a.proto" (by decide)⟩
      · exact ⟨by decide, _, rfl, hbelow s%"a.proto" (by decide)⟩
    · cases List.mem_singleton.1 hf
      cases absolutePaths
      · exact ⟨by decide, _, rfl, hbelow s%"b.proto" (by decide)⟩
      · exact ⟨by decide, _, rfl, hbelow s%"b.proto" (by decide)⟩

/-- What a run on these files reports: rules and files. -/
def reported (ignores : GoMap Str (List Str)) (absolutePaths : Bool) :
    Option (Option (List (Str × Str))) :=
  (run sampleEnv twoFilesHost (ignoring ignores twoFiles) absolutePaths).map fun r =>
    r.toOption.map (·.map fun f => (f.lintID, f.filename))

/-- Without ignores both rules complain about both files. -/
example : reported [] true = some (some
    [(s%"FILE_OPTIONS_REQUIRE_GO_PACKAGE", s%"/r/a.proto"),
     (s%"PACKAGES_SAME_IN_DIR", s%"/r/a.proto"),
     (s%"FILE_OPTIONS_REQUIRE_GO_PACKAGE", s%"/r/b.proto"),
     (s%"PACKAGES_SAME_IN_DIR", s%"/r/b.proto")]) := by decide +kernel

/-- Ignoring a file for a rule on single files. -/
example : reported [(s%"FILE_OPTIONS_REQUIRE_GO_PACKAGE", [s%"/r/b.proto"])] false = some (some
    [(s%"FILE_OPTIONS_REQUIRE_GO_PACKAGE", s%"a.proto"),
     (s%"PACKAGES_SAME_IN_DIR", s%"a.proto"),
     (s%"PACKAGES_SAME_IN_DIR", s%"b.proto")]) := by decide +kernel

/-- The hypotheses of the run theorems hold of these files. -/
example : KnownNames twoFiles.config.lint ∧ ∀ f ∈ filesOf twoFiles, ∃ elements data,
    twoFilesHost.parse f.path (nameIn true f) = .ok (elements, data) ∧
      NoOuterHTTP ⟨nameIn true f, elements, twoFiles.config, data⟩ := by
  refine ⟨⟨fun g hg => ?_, ?_, ?_, ?_⟩, fun f _ => ⟨_, _, rfl, fun o ho => nomatch ho⟩⟩
  · cases hg <;> first | decide | contradiction
  · intro id hid
    rw [← mem_allIDs]
    revert id
    decide +kernel
  · exact fun _ h => nomatch h
  · exact fun _ h => nomatch h

/-- The generated ignores of these files. -/
example : (generateIgnores sampleEnv twoFilesHost twoFiles).map (fun r => r.toOption.map (·.map (·.ignores))) =
    some (some (some [(s%"FILE_OPTIONS_REQUIRE_GO_PACKAGE", [s%"a.proto", s%"b.proto"]),
      (s%"PACKAGES_SAME_IN_DIR", [s%"a.proto", s%"b.proto"])])) := by decide +kernel

/-- C25 is false of the rules that compare files: ignoring `a.proto` for such a rule removes its
failure on `b.proto`, which is not ignored. -/
theorem C25_not_only : ∃ env host ps absolutePaths ignores gs fs f,
    Sound host ps absolutePaths ∧ (∀ p ∈ ignores, DocRule p.1) ∧
      run env host (ignoring [] ps) absolutePaths = some (.ok gs) ∧
      run env host (ignoring ignores ps) absolutePaths = some (.ok fs) ∧
      ¬ Ignored host ps.config.dirPath ignores f ∧ f ∈ gs ∧ f ∉ fs := by
  have hk : ∀ p ∈ [(s%"PACKAGES_SAME_IN_DIR", [s%"/r/a.proto"])], DocRule p.1 := by
    intro p hp
    rw [← mem_allIDs, List.mem_singleton.1 hp]
    decide +kernel
  obtain ⟨gs, hgs, hex⟩ : ∃ gs, run sampleEnv twoFilesHost (ignoring [] twoFiles) true = some (.ok gs) ∧
      ∃ f ∈ gs, f.lintID = s%"PACKAGES_SAME_IN_DIR" ∧ f.filename = s%"/r/b.proto" := by
    have h : ((run sampleEnv twoFilesHost (ignoring [] twoFiles) true).map fun r => r.toOption.map
        (·.any fun f => f.lintID == s%"PACKAGES_SAME_IN_DIR" && f.filename == s%"/r/b.proto")) =
      some (some true) := by decide +kernel
    cases hr : run sampleEnv twoFilesHost (ignoring [] twoFiles) true with
    | none => rw [hr] at h; cases h
    | some r =>
      cases r with
      | error e => rw [hr] at h; cases h
      | ok gs =>
        rw [hr] at h
        injection h with h
        injection h with h
        obtain ⟨f, hf, hb⟩ := List.any_eq_true.1 h
        rw [Bool.and_eq_true, beq_iff_eq, beq_iff_eq] at hb
        exact ⟨gs, rfl, f, hf, hb⟩
  obtain ⟨f, hf, hid, hname⟩ := hex
  obtain ⟨fs, hfs, hno⟩ : ∃ fs, run sampleEnv twoFilesHost
      (ignoring [(s%"PACKAGES_SAME_IN_DIR", [s%"/r/a.proto"])] twoFiles) true = some (.ok fs) ∧
      ∀ f ∈ fs, f.lintID ≠ s%"PACKAGES_SAME_IN_DIR" := by
    have h : ((run sampleEnv twoFilesHost
        (ignoring [(s%"PACKAGES_SAME_IN_DIR", [s%"/r/a.proto"])] twoFiles) true).map fun r =>
          r.toOption.map (·.all fun f => f.lintID != s%"PACKAGES_SAME_IN_DIR")) =
      some (some true) := by decide +kernel
    cases hr : run sampleEnv twoFilesHost
        (ignoring [(s%"PACKAGES_SAME_IN_DIR", [s%"/r/a.proto"])] twoFiles) true with
    | none => rw [hr] at h; cases h
    | some r =>
      cases r with
      | error e => rw [hr] at h; cases h
      | ok fs =>
        rw [hr] at h
        injection h with h
        injection h with h
        exact ⟨fs, rfl, fun f hf => by
          have := List.all_eq_true.1 h f hf
          simpa using this⟩
  refine ⟨sampleEnv, twoFilesHost, twoFiles, true, _, gs, fs, f, twoFiles_sound true, hk, hgs, hfs,
    ?_, hf, fun h => hno f h hid⟩
  rintro ⟨paths, path, h1, h2, h3⟩
  rw [hid] at h1
  rw [hname] at h2
  cases h1
  cases h2
  have hw : Within s%"/r/b.proto" s%"/r" := by
    refine ⟨[s%"r"], [s%"b.proto"], ?_, rfl, rfl⟩
    unfold Components Component
    decide
  obtain ⟨b, hb, hiff⟩ := C20_components s%"/r/b.proto" s%"/r" hw [s%"/r/a.proto"]
  have hb' : File.isExcluded s%"/r/b.proto" s%"/r" [s%"/r/a.proto"] = some false := by decide +kernel
  rw [hb'] at hb
  cases hb
  exact absurd (hiff.2 h3) Bool.false_ne_true

end Verif.Props
