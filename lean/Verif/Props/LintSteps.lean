import Verif.Props.Together
import Verif.Props.Scope
import Verif.Props.ExecLint
import Verif.Proof.LintSteps

/-!
# C115: `lint` while files are formatted

Any number of runs of `format --overwrite` and of programs that only read, `lint` among them, with any schedule. The
theorems whose name ends in `_partial` take a write for one step; with the two steps that it has in the code, `lint` can
say what it would say neither before nor after (`C115_not`).
-/

namespace Verif.Props

open Verif Str Exec Spec

/-- C115: by itself the program of steps does what the command does. -/
theorem C115_alone (h : Host) (env : Lint.Env) (srt : SortSlice) (args : List Str) (flags : LintFlags) :
    (lintCmdSteps h env srt args flags).run = lintCmd h env srt args flags :=
  run_lintCmdSteps h env srt args flags

/-- C115: it changes no file, so it is one of the programs that only read: nothing that C103 says of the runs of
`format` is changed by it. -/
theorem C115_reads (h : Host) (env : Lint.Env) (srt : SortSlice) (args : List Str) (flags : LintFlags) :
    ReadsOnly (lintCmdSteps h env srt args flags) :=
  onlyReads_of_reads (reads_lintCmdSteps h env srt args flags (quiet_lintCmd h env srt args flags))

theorem mixes_whole (h : Host) (srt : SortSlice) (jobs : List FormatJob) (fix : Bool) (lint : Settings.LintConfig)
    (disk : Disk) : Mixes (Whole h srt jobs fix lint disk) := by
  intro d reads hd hr path
  unfold asRead
  split
  · rename_i c hc
    obtain ⟨d', hd', e⟩ := hr _ (lookup_mem hc)
    dsimp only at e
    rw [e]
    exact hd' path
  · exact hd path

/-- C115: **`lint` does and prints what it does and prints by itself in a world where every file is as it was or
formatted**; protoc has seen such a world too, but maybe another one. Missing: writes in two steps, for which this is
false (`C115_not`). -/
theorem C115_seen_partial (h : Host) (hw : ∀ path text, h.writeFile path text = .ok ()) (srt : SortSlice)
    (jobs : List FormatJob) (fix : Bool) (lint : Settings.LintConfig) (hj : FormatJobs h jobs fix lint)
    (readers : List (Prog Unit)) (hr : ∀ r ∈ readers, ReadsOnly r) (disk : Disk)
    (again : ∀ path text, Wanted h srt jobs fix lint disk path text → FormatsTo h srt fix lint path text text)
    (s : System) (hs : Leads (start disk (programs h true srt jobs readers)) s) (i : Nat) (env : Lint.Env)
    (args : List Str) (flags : LintFlags)
    (hi : (programs h true srt jobs readers)[i]? = some (lintCmdSteps h env srt args flags)) (o : Outcome Unit)
    (ho : Ended s i o) :
    ∃ sees d, Whole h srt jobs fix lint disk sees ∧ Whole h srt jobs fix lint disk d ∧
      (lintCmd (protocSees h sees) env srt args flags ⟨d, [], []⟩).2 = o ∧
      Printed s i (lintCmd (protocSees h sees) env srt args flags ⟨d, [], []⟩).1.out := by
  obtain ⟨out, ws, hp, hran⟩ := ran_of_ended hs
    (fun t ht => (allTogether h hw srt jobs fix lint hj readers hr disk again t ht).2) hi ho
  obtain ⟨dc, d, h1, h2, h3, h4⟩ := ran_lint (mixes_whole h srt jobs fix lint disk) ⟨disk, fun _ => .inl rfl⟩ hran
  exact ⟨dc, d, h1, h2, h3, h4 ▸ hp⟩

/-- C115: **about each of its files, `lint` says what it would say before or what it would say after**, apart from the
rules that compare the files of a directory, for which this is false (`C115_not_directory`). `after` is a world in which
all files that the runs are about are formatted. Missing: writes in two steps. -/
theorem C115_reports_partial (h : Host) (c : File.Provider) (o : Order) (hd : Discovers h c o) (hparse : ParserOK h)
    (hp : Prints h) (hc : CanPrint h) (env : Lint.Env) (a : Str) (m : Meta) (hm : Finds h [a] m) (da : Str)
    (ha : StandsFor h a da) (hh : RunsHere h c m.protoSet)
    (hw : ∀ path text, h.writeFile path text = .ok ()) (srt : SortSlice)
    (jobs : List FormatJob) (fix : Bool) (lint : Settings.LintConfig) (hj : FormatJobs h jobs fix lint)
    (readers : List (Prog Unit)) (hr : ∀ r ∈ readers, ReadsOnly r) (disk after : Disk)
    (again : ∀ path text, Wanted h srt jobs fix lint disk path text → FormatsTo h srt fix lint path text text)
    (compiles : ∀ d, Whole h srt jobs fix lint disk d → Compiles h {} m d)
    (lints : ∀ d, Whole h srt jobs fix lint disk d →
      ∃ fs, Lint.run env (lintHost h d) m.protoSet false = some (.ok fs))
    (hafter : Whole h srt jobs fix lint disk after) (hall : AllFormatted h srt jobs fix lint disk after)
    (s : System) (hs : Leads (start disk (programs h true srt jobs readers)) s) (i : Nat)
    (hi : (programs h true srt jobs readers)[i]? = some (lintCmdSteps h env srt [a] {})) (out : Outcome Unit)
    (ho : Ended s i out) :
    ∃ shown before_ after_, Printed s i (shown.flatMap (lineOf h)) ∧
      (lintCmd h env srt [a] {} ⟨disk, [], []⟩).1.out = before_.flatMap (lineOf h) ∧
      (lintCmd h env srt [a] {} ⟨after, [], []⟩).1.out = after_.flatMap (lineOf h) ∧
      (∀ f ∈ shown, AsksRule m.protoSet.config.lint f.lintID ∧ ∃ g, Concerns h m g ∧ f.filename = g.displayPath) ∧
      ∀ g, Concerns h m g →
        (about g.displayPath shown).filter (fun f => decide (f.lintID ∉ directoryRules)) =
            (about g.displayPath before_).filter (fun f => decide (f.lintID ∉ directoryRules)) ∨
          (about g.displayPath shown).filter (fun f => decide (f.lintID ∉ directoryRules)) =
            (about g.displayPath after_).filter (fun f => decide (f.lintID ∉ directoryRules)) := by
  obtain ⟨dc, d, h1, h2, h3, h4⟩ := C115_seen_partial h hw srt jobs fix lint hj readers hr disk again s hs i env [a] {}
    hi out ho
  have hbefore : Whole h srt jobs fix lint disk disk := fun _ => .inl rfl
  obtain ⟨fs, hl⟩ := lints d h2
  obtain ⟨fb, hlb⟩ := lints disk hbefore
  obtain ⟨fa, hla⟩ := lints after hafter
  have hout : (lintCmd (protocSees h dc) env srt [a] {} ⟨d, [], []⟩).1.out = (shownOf h m fs).flatMap (lineOf h) := by
    rw [C62_lint (protocSees h dc) hp hc env srt [a] m hm ⟨d, [], []⟩ (compiles dc h1) fs hl]
    rfl
  obtain ⟨b1, b2, b3, b4⟩ := lint_shown h c o hd hparse hp hc env srt a a m m hm hm da da ha ha (.inl rfl) hh
    ⟨d, [], []⟩ ⟨disk, [], []⟩ (compiles d h2) (compiles disk hbefore) fs fb hl hlb
  obtain ⟨_, a2, _, a4⟩ := lint_shown h c o hd hparse hp hc env srt a a m m hm hm da da ha ha (.inl rfl) hh
    ⟨d, [], []⟩ ⟨after, [], []⟩ (compiles d h2) (compiles after hafter) fs fa hl hla
  refine ⟨shownOf h m fs, shownOf h m fb, shownOf h m fa, hout ▸ h4, by rw [b2]; rfl, by rw [a2]; rfl, b3, ?_⟩
  intro g hg
  rcases h2 g.path with e | ⟨t, ht, e⟩
  · exact .inl ((b4 g hg hg e.symm).1.symm)
  · exact .inr ((a4 g hg hg ((hall _ _ ht).trans e.symm)).1.symm)

/-! ## Examples and violations -/

section Example

/-- A configuration with the rule for the syntax only. -/
def seenSet : File.ProtoSet :=
  { raceSet with config := { Spec.Sample.config with
      lint := { Spec.Sample.config.lint with group := s%"empty", includeIDs := [s%"SYNTAX_PROTO3"] } } }

/-- The host of the race with this configuration; the parser knows where the syntax is. -/
def seenHost : Host :=
  { Exec.Sample.host with
    getForDir := fun _ p => if p = s%"a" then .ok seenSet else .error s%"no such directory"
    parse := fun f c =>
      if c = [] then .ok []
      else if c = s%"syntax=\"proto3\";" ∨ c = s%"syntax = \"proto3\";\n" then
        .ok [.syntax { position := ⟨f, 1, 1⟩, value := s%"proto3" }]
      else .error s%"cannot be parsed" }

/-- One run of `format --overwrite a`. -/
def seenJobs : List FormatJob :=
  [{ order := .id, args := [s%"a"], flags := { overwrite := true }, about := { protoSet := seenSet } }]

/-- `lint a`. -/
def seenLint : Prog Unit := lintCmdSteps seenHost sampleEnv .stable [s%"a"] {}

theorem seenJobs_ok : FormatJobs seenHost seenJobs false seenSet.config.lint where
  finds := by
    intro j hj
    cases List.mem_singleton.1 hj
    exact ⟨s%"a", .inl rfl, .inl ⟨rfl, rfl, rfl⟩⟩
  overwrite := by
    intro j hj
    cases List.mem_singleton.1 hj
    exact ⟨rfl, rfl, rfl⟩
  fix := by
    intro j hj
    cases List.mem_singleton.1 hj
    rfl
  lint := by
    intro j hj
    cases List.mem_singleton.1 hj
    rfl

theorem seen_formats : FormatsTo seenHost .stable false seenSet.config.lint s%"/w/a/one.proto" s%"syntax=\"proto3\";"
    s%"syntax = \"proto3\";\n" := ⟨_, rfl, rfl⟩

theorem seen_again (path text : Str)
    (h : Wanted seenHost .stable seenJobs false seenSet.config.lint raceDisk path text) :
    FormatsTo seenHost .stable false seenSet.config.lint path text text := by
  obtain ⟨_, c, hc, hF⟩ := h
  by_cases hp : path = s%"/w/a/one.proto"
  · subst hp
    cases hc
    cases formatsTo_unique hF seen_formats
    exact ⟨_, rfl, rfl⟩
  · unfold raceDisk at hc
    rw [if_neg hp] at hc
    cases hc

/-- With whole writes: `lint` reads after the file has been formatted. -/
def seenWhole : System :=
  schedule [1, 0, 0, 0, 0, 0, 1, 1] (start raceDisk (programs seenHost true .stable seenJobs [seenLint]))

/-- It ends well and prints nothing. -/
example : Ended seenWhole 0 (.ok ()) ∧ Ended seenWhole 1 (.ok ()) ∧ Printed seenWhole 1 [] ∧
    seenWhole.disk s%"/w/a/one.proto" = some s%"syntax = \"proto3\";\n" :=
  ⟨⟨_, rfl, rfl⟩, ⟨_, rfl, rfl⟩, ⟨_, rfl, rfl⟩, rfl⟩

/-- With writes in two steps: `lint` reads while the file is empty. -/
def seenEmpty : System :=
  schedule [1, 0, 0, 0, 1, 1, 0, 0] (start raceDisk (programs seenHost false .stable seenJobs [seenLint]))

/-- C115 is false of writes in two steps, which is what the code does: **`lint` says that there is no syntax
declaration, which is true neither before nor after.** -/
theorem C115_not : ∃ (h : Host) (env : Lint.Env) (srt : SortSlice) (a : Str) (jobs : List FormatJob) (fix : Bool)
    (lint : Settings.LintConfig) (disk : Disk) (s : System),
    Prints h ∧ (∀ path text, h.writeFile path text = .ok ()) ∧ FormatJobs h jobs fix lint ∧
      (∀ path text, Wanted h srt jobs fix lint disk path text → FormatsTo h srt fix lint path text text) ∧
      Leads (start disk (programs h false srt jobs [lintCmdSteps h env srt [a] {}])) s ∧ Ended s 0 (.ok ()) ∧
      lintCmd h env srt [a] {} ⟨disk, [], []⟩ = (⟨disk, [], []⟩, .ok ()) ∧
      lintCmd h env srt [a] {} ⟨s.disk, [], []⟩ = (⟨s.disk, [], []⟩, .ok ()) ∧ Ended s 1 (.error (.exit 255 [])) ∧
      Printed s 1 s%"a/one.proto:1:1:No syntax declaration found.\n" :=
  ⟨seenHost, sampleEnv, .stable, s%"a", seenJobs, false, seenSet.config.lint, raceDisk, seenEmpty, fun _ _ => rfl,
    fun _ _ => rfl, seenJobs_ok, seen_again, reaches_schedule _ _, ⟨_, rfl, rfl⟩, rfl, rfl, ⟨_, rfl, rfl⟩, ⟨_, rfl, rfl⟩⟩

end Example

/-! ### The hypotheses can be met -/

section Turns

open File

/-- The nested files, with a parser that knows one text and its formatted form. -/
def turnsHost : Exec.Host :=
  { nestedHost with
    parse := fun p c =>
      if c = s%"syntax=\"proto3\";" ∨ c = s%"syntax = \"proto3\";\n" then
        .ok [.syntax { position := ⟨p, 1, 1⟩, value := s%"proto3" }]
      else .error s%"cannot be parsed" }

/-- What is found for `z.proto`. -/
def turnsSet : File.ProtoSet :=
  match getForDirOf besideProvider Order.id s%"/w/a" s%"." with
  | .ok ps => ps
  | .error _ => raceSet

theorem turns_lints (d : Disk) (h : ∀ p, d p = some s%"syntax=\"proto3\";" ∨ d p = some s%"syntax = \"proto3\";\n") :
    ∃ fs, Lint.run sampleEnv (lintHost turnsHost d) turnsSet false = some (.ok fs) := by
  have e : ∃ d0 : Disk, d = fun p => if p = s%"/w/a/x.proto" then d s%"/w/a/x.proto" else
      if p = s%"/w/a/z.proto" then d s%"/w/a/z.proto" else d0 p := by
    refine ⟨d, funext fun p => ?_⟩
    split
    · rename_i e; rw [e]
    · split
      · rename_i e; rw [e]
      · rfl
  obtain ⟨d0, e⟩ := e
  generalize h1 : d s%"/w/a/x.proto" = x at e
  generalize h2 : d s%"/w/a/z.proto" = z at e
  have hx := h s%"/w/a/x.proto"
  have hz := h s%"/w/a/z.proto"
  rw [h1] at hx
  rw [h2] at hz
  rw [e]
  rcases hx with rfl | rfl <;> rcases hz with rfl | rfl <;> exact ⟨_, rfl⟩

theorem turns_discovers : Discovers turnsHost besideProvider Order.id :=
  ⟨rfl, nested_discovers.wd, nested_discovers.workDirPath, nested_discovers.stat, nested_discovers.tree,
    nested_discovers.excludes⟩

/-- One run of `format --overwrite z.proto`. -/
def turnsJobs : List FormatJob :=
  [{ order := .id, args := [s%"z.proto"], flags := { overwrite := true },
     about := { protoSet := turnsSet, singleFilename := s%"z.proto" } }]

/-- The file is not formatted; nor are the others. -/
def turnsDisk : Disk := fun _ => some s%"syntax=\"proto3\";"

theorem turns_text (path text : Str)
    (h : Wanted turnsHost .stable turnsJobs false turnsSet.config.lint turnsDisk path text) :
    text = s%"syntax = \"proto3\";\n" := by
  obtain ⟨⟨j, hj, f, ⟨_, hf⟩, rfl⟩, c, hc, hF⟩ := h
  cases List.mem_singleton.1 hj
  have hz : absClean turnsHost.wd s%"z.proto" = s%"/w/a/z.proto" := by decide
  have hp : f.path = s%"/w/a/z.proto" := by
    rcases hf with hf | hf
    · exact absurd hf (by decide)
    · rw [hf]
      exact hz
  rw [hp] at hF
  injection hc with hc
  subst hc
  exact formatsTo_unique hF ⟨_, rfl, rfl⟩

theorem turns_whole (d : Disk) (h : Whole turnsHost .stable turnsJobs false turnsSet.config.lint turnsDisk d) (p : Str) :
    d p = some s%"syntax=\"proto3\";" ∨ d p = some s%"syntax = \"proto3\";\n" := by
  rcases h p with e | ⟨t, ht, e⟩
  · exact .inl e
  · rw [turns_text p t ht] at e
    exact .inr e

theorem turns_found : Finds turnsHost [s%"z.proto"] { protoSet := turnsSet, singleFilename := s%"z.proto" } :=
  ⟨s%"z.proto", .inl rfl, .inr ⟨rfl, rfl, rfl⟩⟩

theorem turnsJobs_ok : FormatJobs turnsHost turnsJobs false turnsSet.config.lint where
  finds := by
    intro j hj
    cases List.mem_singleton.1 hj
    exact turns_found
  overwrite := by
    intro j hj
    cases List.mem_singleton.1 hj
    exact ⟨rfl, rfl, rfl⟩
  fix := by
    intro j hj
    cases List.mem_singleton.1 hj
    rfl
  lint := by
    intro j hj
    cases List.mem_singleton.1 hj
    rfl

/-- The hypotheses of `C115_reports_partial` hold of `lint z.proto` and `format --overwrite z.proto`. -/
example : let m : Meta := { protoSet := turnsSet, singleFilename := s%"z.proto" }
    let after : Disk := fun p => if p = s%"/w/a/z.proto" then some s%"syntax = \"proto3\";\n" else turnsDisk p
    Discovers turnsHost besideProvider Order.id ∧ ParserOK turnsHost ∧ Prints turnsHost ∧ CanPrint turnsHost ∧
      Finds turnsHost [s%"z.proto"] m ∧ StandsFor turnsHost s%"z.proto" s%"/w/a" ∧
      RunsHere turnsHost besideProvider m.protoSet ∧ FormatJobs turnsHost turnsJobs false turnsSet.config.lint ∧
      (∀ path text, Wanted turnsHost .stable turnsJobs false turnsSet.config.lint turnsDisk path text →
        FormatsTo turnsHost .stable false turnsSet.config.lint path text text) ∧
      (∀ d, Whole turnsHost .stable turnsJobs false turnsSet.config.lint turnsDisk d → Compiles turnsHost {} m d ∧
        ∃ fs, Lint.run sampleEnv (lintHost turnsHost d) m.protoSet false = some (.ok fs)) ∧
      Whole turnsHost .stable turnsJobs false turnsSet.config.lint turnsDisk after ∧
      AllFormatted turnsHost .stable turnsJobs false turnsSet.config.lint turnsDisk after ∧ after ≠ turnsDisk := by
  have hz : absClean turnsHost.wd s%"z.proto" = s%"/w/a/z.proto" := by decide
  have hpath : ∀ path text, Wanted turnsHost .stable turnsJobs false turnsSet.config.lint turnsDisk path text →
      path = s%"/w/a/z.proto" := by
    rintro path text ⟨⟨j, hj, f, ⟨_, hf⟩, rfl⟩, _⟩
    cases List.mem_singleton.1 hj
    rcases hf with hf | hf
    · exact absurd hf (by decide)
    · rw [hf]
      exact hz
  have hwant : Wanted turnsHost .stable turnsJobs false turnsSet.config.lint turnsDisk s%"/w/a/z.proto"
      s%"syntax = \"proto3\";\n" := by
    refine ⟨⟨_, List.mem_cons_self, ⟨s%"/w/a/z.proto", s%"z.proto"⟩, ⟨⟨s%"/w/a",
      [⟨s%"/w/a/x.proto", s%"x.proto"⟩, ⟨s%"/w/a/z.proto", s%"z.proto"⟩], ?_, ?_, by decide⟩, .inr hz.symm⟩, rfl⟩,
      _, rfl, _, rfl, rfl⟩
    · exact List.mem_cons_self
    · exact ⟨[], rfl⟩
  intro m after
  refine ⟨turns_discovers, ⟨?_, ?_⟩, fun _ _ => rfl, ⟨⟨_, rfl⟩, fun h => nomatch h⟩, turns_found, .inr ⟨rfl, by decide⟩,
    ⟨rfl, by decide, ?_⟩, turnsJobs_ok, ?_, fun d hd => ⟨⟨_, rfl⟩, turns_lints d (turns_whole d hd)⟩, ?_, ?_, ?_⟩
  · intro filename data elements h config
    simp only [turnsHost] at h
    split at h
    · cases h
      constructor <;> intro n hn <;> cases List.mem_singleton.1 hn
      · rfl
      · exact ⟨rfl, fun _ h => nomatch h⟩
    · cases h
  · intro filename data elements h ρ
    simp only [turnsHost] at h ⊢
    split at h
    · rename_i hc
      rw [if_pos hc]
      cases h
      rfl
    · cases h
  · have hfiles : turnsSet.dirPathToFiles =
        [(s%"/w/a", [⟨s%"/w/a/x.proto", s%"x.proto"⟩, ⟨s%"/w/a/z.proto", s%"z.proto"⟩]),
        (s%"/w", [⟨s%"/w/b.proto", s%"../b.proto"⟩])] := rfl
    unfold allFiles
    show ∀ f ∈ turnsSet.dirPathToFiles.flatMap _, _
    rw [hfiles]
    simp only [← Exec.Sample.isWithin_iff]
    decide
  · intro path text h
    rw [turns_text path text h, hpath path text h]
    exact ⟨_, rfl, rfl⟩
  · intro path
    by_cases hp : path = s%"/w/a/z.proto"
    · subst hp
      exact .inr ⟨_, hwant, if_pos rfl⟩
    · exact .inl (if_neg hp)
  · intro path text h
    rw [turns_text path text h, hpath path text h]
    exact if_pos rfl
  · intro h
    have := congrFun h s%"/w/a/z.proto"
    exact absurd (Option.some.inj this) (by decide)

end Turns

/-! ### Rules that compare files -/

section Directory

/-- Two files, and the rule that the Go package is the same in a directory. -/
def goSet : File.ProtoSet where
  workDirPath := s%"/w"
  dirPath := s%"/w/a"
  dirPathToFiles := [(s%"/w/a", [⟨s%"/w/a/one.proto", s%"a/one.proto"⟩, ⟨s%"/w/a/two.proto", s%"a/two.proto"⟩])]
  config := { Spec.Sample.config with
    lint := { Spec.Sample.config.lint with
      group := s%"empty", includeIDs := [s%"FILE_OPTIONS_GO_PACKAGE_SAME_IN_DIR"] } }

/-- What is in the files. -/
def goText : Str := s%"syntax = \"proto3\";\n\npackage foo.v1;\n\noption go_package = \"x\";\n"

/-- What is in them when they are formatted with `--fix`. -/
def goFixed (cls : Str) : Str :=
  s%"syntax = \"proto3\";\n\npackage foo.v1;\n\noption go_package = \"v1pb\";\noption java_multiple_files = true;\n" ++
    s%"option java_outer_classname = \"" ++ cls ++ s%"Proto\";\noption java_package = \"com.foo.v1\";\n"

/-- The elements of a fixed file. -/
def goElements (f cls : Str) : List Proto.Element :=
  [.syntax { position := ⟨f, 1, 1⟩, value := s%"proto3" }, .package { position := ⟨f, 3, 1⟩, name := s%"foo.v1" },
    .option { position := ⟨f, 5, 1⟩, name := s%"go_package", constant := .str s%"v1pb" },
    .option { position := ⟨f, 6, 1⟩, name := s%"java_multiple_files", constant := .plain s%"true" },
    .option { position := ⟨f, 7, 1⟩, name := s%"java_outer_classname", constant := .str (cls ++ s%"Proto") },
    .option { position := ⟨f, 8, 1⟩, name := s%"java_package", constant := .str s%"com.foo.v1" }]

/-- The host for these files. -/
def goHost : Host :=
  { Exec.Sample.host with
    getForDir := fun _ p => if p = s%"a" then .ok goSet else .error s%"no such directory"
    parse := fun f c =>
      if c = goText then
        .ok [.syntax { position := ⟨f, 1, 1⟩, value := s%"proto3" },
          .package { position := ⟨f, 3, 1⟩, name := s%"foo.v1" },
          .option { position := ⟨f, 5, 1⟩, name := s%"go_package", constant := .str s%"x" }]
      else if c = goFixed s%"One" then .ok (goElements f s%"One")
      else if c = goFixed s%"Two" then .ok (goElements f s%"Two")
      else .error s%"cannot be parsed" }

/-- Neither file is fixed. -/
def goDisk : Disk := fun p => if p = s%"/w/a/one.proto" ∨ p = s%"/w/a/two.proto" then some goText else none

/-- One run of `format --overwrite --fix a`. -/
def goJobs : List FormatJob :=
  [{ order := .id, args := [s%"a"], flags := { overwrite := true, fix := true }, about := { protoSet := goSet } }]

/-- `lint` reads one file when it is fixed and the other when it is not. -/
def goMixed : System := schedule [1, 0, 0, 0, 1, 1, 1, 0, 0, 0]
  (start goDisk (programs goHost true .stable goJobs [lintCmdSteps goHost sampleEnv .stable [s%"a"] {}]))

theorem goJobs_ok : FormatJobs goHost goJobs true goSet.config.lint where
  finds := by
    intro j hj
    cases List.mem_singleton.1 hj
    exact ⟨s%"a", .inl rfl, .inl ⟨rfl, rfl, rfl⟩⟩
  overwrite := by
    intro j hj
    cases List.mem_singleton.1 hj
    exact ⟨rfl, rfl, rfl⟩
  fix := by
    intro j hj
    cases List.mem_singleton.1 hj
    rfl
  lint := by
    intro j hj
    cases List.mem_singleton.1 hj
    rfl

set_option maxRecDepth 20000 in
theorem go_one : FormatsTo goHost .stable true goSet.config.lint s%"/w/a/one.proto" goText (goFixed s%"One") :=
  ⟨_, rfl, rfl⟩

set_option maxRecDepth 20000 in
theorem go_two : FormatsTo goHost .stable true goSet.config.lint s%"/w/a/two.proto" goText (goFixed s%"Two") :=
  ⟨_, rfl, rfl⟩

set_option maxRecDepth 20000 in
theorem go_again (path text : Str)
    (h : Wanted goHost .stable goJobs true goSet.config.lint goDisk path text) :
    FormatsTo goHost .stable true goSet.config.lint path text text := by
  obtain ⟨_, c, hc, hF⟩ := h
  by_cases hp : path = s%"/w/a/one.proto"
  · subst hp
    cases hc
    cases formatsTo_unique hF go_one
    exact ⟨_, rfl, rfl⟩
  · by_cases hp' : path = s%"/w/a/two.proto"
    · subst hp'
      cases hc
      cases formatsTo_unique hF go_two
      exact ⟨_, rfl, rfl⟩
    · unfold goDisk at hc
      rw [if_neg (by simp [hp, hp'])] at hc
      cases hc

set_option maxRecDepth 20000 in
/-- For the rules that compare the files of a directory C115 is false of whole writes too: **`lint` says that the files
have different Go packages, which is true neither before nor after.** -/
theorem C115_not_directory : ∃ (h : Host) (env : Lint.Env) (srt : SortSlice) (a : Str) (jobs : List FormatJob)
    (fix : Bool) (lint : Settings.LintConfig) (disk : Disk) (s : System),
    Prints h ∧ (∀ path text, h.writeFile path text = .ok ()) ∧ FormatJobs h jobs fix lint ∧
      (∀ path text, Wanted h srt jobs fix lint disk path text → FormatsTo h srt fix lint path text text) ∧
      Leads (start disk (programs h true srt jobs [lintCmdSteps h env srt [a] {}])) s ∧ Ended s 0 (.ok ()) ∧
      lintCmd h env srt [a] {} ⟨disk, [], []⟩ = (⟨disk, [], []⟩, .ok ()) ∧
      lintCmd h env srt [a] {} ⟨s.disk, [], []⟩ = (⟨s.disk, [], []⟩, .ok ()) ∧ Ended s 1 (.error (.exit 255 [])) ∧
      Printed s 1 (s%"a/one.proto:1:1:Multiple values for file option \"go_package\" in directory: v1pb, x.\n" ++
        s%"a/two.proto:1:1:Multiple values for file option \"go_package\" in directory: v1pb, x.\n") :=
  ⟨goHost, sampleEnv, .stable, s%"a", goJobs, true, goSet.config.lint, goDisk, goMixed, fun _ _ => rfl,
    fun _ _ => rfl, goJobs_ok, go_again, reaches_schedule _ _, ⟨_, rfl, rfl⟩, rfl, rfl, ⟨_, rfl, rfl⟩, ⟨_, rfl, rfl⟩⟩

end Directory

end Verif.Props
