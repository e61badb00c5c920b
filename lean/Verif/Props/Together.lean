import Verif.Proof.Together
import Verif.Spec.ExecSample

/-!
# C103: runs of `format` at the same time

Any number of runs of `format --overwrite` and of programs that only read, with any schedule. The theorems whose name
ends in `_partial` take a write for one step; with the two steps that it has in the code, content can be lost
(`C103_not`).
-/

namespace Verif.Props

open Verif Str Exec Spec

/-- C103: by itself the program of steps does what the command does, whether writing is one step or two. -/
theorem C103_alone (h : Host) (whole : Bool) (o : Order) (srt : SortSlice) (args : List Str) (flags : FormatFlags) :
    (formatCmdSteps h whole o srt args flags).run = formatCmd h o srt args flags := by
  unfold formatCmdSteps formatCmd
  split
  · rfl
  rw [run_bind, run_lift]
  refine congrArg (Run.bind _) (funext fun m => ?_)
  rw [run_bind, run_atomic]
  refine congrArg (Run.bind _) (funext fun _ => ?_)
  rw [run_bind, run_formatFilesSteps]
  unfold format
  refine congrArg (Run.bind _) (funext fun ok => ?_)
  split <;> rfl

/-- C103: every schedule ends, and until then some process can go on. -/
theorem C103_ends (s : System) :
    Acc (fun t s => Moves s t) s ∧ ((∃ t, Moves s t) ∨ ∀ i, i < s.procs.length → ∃ o, Ended s i o) := by
  constructor
  · have key : ∀ ps, Acc Less ps → ∀ s : System, s.procs.map (·.prog) = ps → Acc (fun t s => Moves s t) s := by
      intro ps hps
      induction hps with
      | intro ps _ ih =>
        rintro s rfl
        refine ⟨_, fun t ht => ?_⟩
        cases ht with
        | mk hi hp => exact ih _ (less_set hi hp _ _ _) _ rfl
    exact key _ (acc_less _) s rfl
  · rcases Classical.em (∃ t, Moves s t) with hm | hm
    · exact .inl hm
    · refine .inr fun i hi => ?_
      have hp : s.procs[i]? = some s.procs[i] := List.getElem?_eq_getElem hi
      cases hg : s.procs[i].prog with
      | done o => exact ⟨o, _, hp, hg⟩
      | step next k => exact absurd ⟨_, .mk hp hg⟩ hm

/-- C103: without `--overwrite`, `format` changes no file, so it is one of the programs that only read. -/
theorem C103_reads (h : Host) (whole : Bool) (o : Order) (srt : SortSlice) (args : List Str) (flags : FormatFlags)
    (ho : flags.overwrite = false) : ReadsOnly (formatCmdSteps h whole o srt args flags) :=
  onlyReads_of_reads (reads_formatCmd h whole o srt args flags ho)

/-- The runs, and what only reads. -/
def programs (h : Host) (whole : Bool) (srt : SortSlice) (jobs : List FormatJob) (readers : List (Prog Unit)) :
    List (Prog Unit) :=
  jobs.map (fun j => formatCmdSteps h whole j.order srt j.args j.flags) ++ readers

/-- What each process promises. -/
theorem allTogether (h : Host) (hw : ∀ path text, h.writeFile path text = .ok ()) (srt : SortSlice) (jobs : List FormatJob)
    (fix : Bool) (lint : Settings.LintConfig) (hj : FormatJobs h jobs fix lint) (readers : List (Prog Unit))
    (hr : ∀ r ∈ readers, ReadsOnly r) (disk : Disk)
    (again : ∀ path text, Wanted h srt jobs fix lint disk path text → FormatsTo h srt fix lint path text text)
    (s : System) (hs : Leads (start disk (programs h true srt jobs readers)) s) :
    AllSat (Allowed h srt jobs fix lint disk) (fun i o d => ∀ j, jobs[i]? = some j →
      (o = .ok () → ∀ f, Concerns h j.about f → Formatted h srt jobs fix lint disk f.path d) ∧
        (Prints h → ErrorFormatKnown h → (∀ d, Whole h srt jobs fix lint disk d → Compiles h {} j.about d) →
          (∀ f, Concerns h j.about f → ∃ t, Wanted h srt jobs fix lint disk f.path t) → o = .ok ())) s ∧
      Whole h srt jobs fix lint disk s.disk := by
  refine allSat_reaches ?_ hs (whole_stable h srt jobs fix lint disk) fun _ => .inl rfl
  intro i p hi
  unfold start programs at hi
  dsimp only at hi
  rw [List.getElem?_map] at hi
  cases hg : (jobs.map (fun j => formatCmdSteps h true j.order srt j.args j.flags) ++ readers)[i]? with
  | none => rw [hg] at hi; cases hi
  | some prog =>
    rw [hg] at hi
    cases hi
    rw [List.getElem?_append] at hg
    split at hg
    · rw [List.getElem?_map] at hg
      cases hji : jobs[i]? with
      | none => rw [hji] at hg; cases hg
      | some j =>
        rw [hji] at hg
        cases hg
        refine ⟨_, whole_stable h srt jobs fix lint disk, fun _ => .inl rfl,
          sat_post (sat_formatCmd hw hj (List.mem_of_getElem? hji) again) fun o d hq j' hj' => ?_⟩
        rw [hji] at hj'
        cases hj'
        exact hq
    · rename_i hlt
      refine ⟨_, stable_const True, trivial,
        sat_post (sat_reads (hr _ (List.mem_of_getElem? hg)) (allowed_refl h srt jobs fix lint disk)) ?_⟩
      intro o d _ j hj'
      have := (List.getElem?_eq_some_iff.1 hj').1
      rw [List.length_map] at hlt
      exact absurd this hlt

/-- C103: **at every moment every file is as it was or formatted**, so no content is lost, whoever is killed. Missing:
writes in two steps, for which this is false (`C103_not`). -/
theorem C103_whole_partial (h : Host) (hw : ∀ path text, h.writeFile path text = .ok ()) (srt : SortSlice)
    (jobs : List FormatJob) (fix : Bool) (lint : Settings.LintConfig) (hj : FormatJobs h jobs fix lint)
    (readers : List (Prog Unit)) (hr : ∀ r ∈ readers, ReadsOnly r) (disk : Disk)
    (again : ∀ path text, Wanted h srt jobs fix lint disk path text → FormatsTo h srt fix lint path text text)
    (s : System) (hs : Leads (start disk (programs h true srt jobs readers)) s) (path : Str) :
    s.disk path = disk path ∨ ∃ text, Wanted h srt jobs fix lint disk path text ∧ s.disk path = some text :=
  (allTogether h hw srt jobs fix lint hj readers hr disk again s hs).2 path

/-- C103: **when a run has ended well, its files are formatted**, whatever the others have done and still do. Missing:
writes in two steps. -/
theorem C103_done_partial (h : Host) (hw : ∀ path text, h.writeFile path text = .ok ()) (srt : SortSlice)
    (jobs : List FormatJob) (fix : Bool) (lint : Settings.LintConfig) (hj : FormatJobs h jobs fix lint)
    (readers : List (Prog Unit)) (hr : ∀ r ∈ readers, ReadsOnly r) (disk : Disk)
    (again : ∀ path text, Wanted h srt jobs fix lint disk path text → FormatsTo h srt fix lint path text text)
    (s : System) (hs : Leads (start disk (programs h true srt jobs readers)) s) (i : Nat) (j : FormatJob)
    (hi : jobs[i]? = some j) (he : Ended s i (.ok ())) (f : File.ProtoFile) (hf : Concerns h j.about f) :
    ∃ content text, disk f.path = some content ∧ FormatsTo h srt fix lint f.path content text ∧
      s.disk f.path = some text := by
  obtain ⟨hall, _⟩ := allTogether h hw srt jobs fix lint hj readers hr disk again s hs
  obtain ⟨p, hp, hd⟩ := he
  obtain ⟨P, _, hP, hsat⟩ := hall i p hp
  rw [hd] at hsat
  obtain ⟨t, ⟨_, c, hc, hF⟩, ht⟩ := (hsat _ hP j hi).1 rfl f hf
  exact ⟨c, t, hc, hF, ht⟩

/-- C103: if all the files can be formatted and compile however many of them are formatted, every run that has ended
has ended well. Missing: writes in two steps. -/
theorem C103_well_partial (h : Host) (hw : ∀ path text, h.writeFile path text = .ok ()) (hp : Prints h)
    (he : ErrorFormatKnown h) (srt : SortSlice)
    (jobs : List FormatJob) (fix : Bool) (lint : Settings.LintConfig) (hj : FormatJobs h jobs fix lint)
    (readers : List (Prog Unit)) (hr : ∀ r ∈ readers, ReadsOnly r) (disk : Disk)
    (again : ∀ path text, Wanted h srt jobs fix lint disk path text → FormatsTo h srt fix lint path text text)
    (formats : ∀ j ∈ jobs, ∀ f, Concerns h j.about f → ∃ content text, disk f.path = some content ∧
      FormatsTo h srt fix lint f.path content text)
    (compiles : ∀ j ∈ jobs, ∀ d, Whole h srt jobs fix lint disk d → Compiles h {} j.about d)
    (s : System) (hs : Leads (start disk (programs h true srt jobs readers)) s) (i : Nat) (j : FormatJob)
    (hi : jobs[i]? = some j) (o : Outcome Unit) (ho : Ended s i o) : o = .ok () := by
  obtain ⟨hall, _⟩ := allTogether h hw srt jobs fix lint hj readers hr disk again s hs
  obtain ⟨p, hpi, hd⟩ := ho
  obtain ⟨P, _, hP, hsat⟩ := hall i p hpi
  rw [hd] at hsat
  have hmem := List.mem_of_getElem? hi
  refine (hsat _ hP j hi).2 hp he (compiles j hmem) fun f hf => ?_
  obtain ⟨c, t, h1, h2⟩ := formats j hmem f hf
  exact ⟨t, ⟨j, hmem, f, hf, rfl⟩, c, h1, h2⟩

/-- C103: **when all runs have ended well, the disk is the same whatever the schedule was**: the same as after one run
after the other. Missing: writes in two steps. -/
theorem C103_same_partial (h : Host) (hw : ∀ path text, h.writeFile path text = .ok ()) (srt : SortSlice)
    (jobs : List FormatJob) (fix : Bool) (lint : Settings.LintConfig) (hj : FormatJobs h jobs fix lint)
    (readers readers' : List (Prog Unit)) (hr : ∀ r ∈ readers, ReadsOnly r) (hr' : ∀ r ∈ readers', ReadsOnly r)
    (disk : Disk)
    (again : ∀ path text, Wanted h srt jobs fix lint disk path text → FormatsTo h srt fix lint path text text)
    (s s' : System) (hs : Leads (start disk (programs h true srt jobs readers)) s)
    (hs' : Leads (start disk (programs h true srt jobs readers')) s')
    (he : ∀ i, i < jobs.length → Ended s i (.ok ())) (he' : ∀ i, i < jobs.length → Ended s' i (.ok ())) :
    s.disk = s'.disk := by
  funext path
  rcases Classical.em (∃ j ∈ jobs, ∃ f, Concerns h j.about f ∧ f.path = path) with ⟨j, hj', f, hf, rfl⟩ | hno
  · obtain ⟨i, hi, hji⟩ := List.getElem_of_mem hj'
    have hji : jobs[i]? = some j := by rw [List.getElem?_eq_getElem hi, hji]
    obtain ⟨c, t, h1, h2, h3⟩ := C103_done_partial h hw srt jobs fix lint hj readers hr disk again s hs i j hji
      (he i hi) f hf
    obtain ⟨c', t', h1', h2', h3'⟩ := C103_done_partial h hw srt jobs fix lint hj readers' hr' disk again s' hs' i j
      hji (he' i hi) f hf
    rw [h1] at h1'
    cases h1'
    rw [h3, h3', formatsTo_unique h2 h2']
  · have un : ∀ {rs : List (Prog Unit)} {u : System}, (∀ r ∈ rs, ReadsOnly r) →
        Leads (start disk (programs h true srt jobs rs)) u → u.disk path = disk path := by
      intro rs u hrs hu
      rcases C103_whole_partial h hw srt jobs fix lint hj rs hrs disk again u hu path with e | ⟨_, ⟨hc, _⟩, _⟩
      · exact e
      · exact absurd hc hno
    rw [un hr hs, un hr' hs']

/-! ## Examples and violations -/

/-- The system after moves of these processes. -/
def schedule : List Nat → System → System
  | [], s => s
  | i :: is, s =>
    match s.procs[i]? with
    | none => schedule is s
    | some p =>
      match p.prog with
      | .done _ => schedule is s
      | .step next k => schedule is ⟨(next ⟨s.disk, p.out, p.writes⟩).disk, s.procs.set i
          ⟨k ⟨s.disk, p.out, p.writes⟩, (next ⟨s.disk, p.out, p.writes⟩).out,
            (next ⟨s.disk, p.out, p.writes⟩).writes⟩⟩

theorem reaches_trans {s t u : System} (h1 : Leads s t) (h2 : Leads t u) : Leads s u := by
  induction h2 with
  | refl => exact h1
  | more _ hm ih => exact .more ih hm

theorem reaches_schedule (is : List Nat) (s : System) : Leads s (schedule is s) := by
  induction is generalizing s with
  | nil => exact .refl s
  | cons i is ih =>
    unfold schedule
    split
    · exact ih s
    · rename_i p hp
      split
      · exact ih s
      · rename_i next k hk
        exact reaches_trans (.more (.refl s) (.mk hp hk)) (ih _)

section Example

open Exec.Sample

/-- One run for the directory and one for a file in it. -/
def twoJobs : List FormatJob :=
  [{ order := .id, args := [s%"a"], flags := { overwrite := true }, about := dir },
   { order := .id, args := [s%"a"], flags := { overwrite := true }, about := dir }]

theorem twoJobs_ok : FormatJobs host twoJobs false Spec.Sample.config.lint where
  finds := by
    intro j hj
    simp only [twoJobs, List.mem_cons, List.not_mem_nil, or_false, or_self] at hj
    subst hj
    exact ⟨s%"a", .inl rfl, .inl ⟨rfl, rfl, rfl⟩⟩
  overwrite := by
    intro j hj
    simp only [twoJobs, List.mem_cons, List.not_mem_nil, or_false, or_self] at hj
    subst hj
    exact ⟨rfl, rfl, rfl⟩
  fix := by
    intro j hj
    simp only [twoJobs, List.mem_cons, List.not_mem_nil, or_false, or_self] at hj
    subst hj
    rfl
  lint := by
    intro j hj
    simp only [twoJobs, List.mem_cons, List.not_mem_nil, or_false, or_self] at hj
    subst hj
    rfl

/-- Formatting a formatted file of the example changes nothing. -/
theorem twoJobs_again (path text : Str)
    (h : Wanted host .stable twoJobs false Spec.Sample.config.lint world.disk path text) :
    FormatsTo host .stable false Spec.Sample.config.lint path text text := by
  obtain ⟨⟨j, hj, f, ⟨⟨d, files, h1, _, h2⟩, _⟩, rfl⟩, c, _, es, h3, h4⟩ := h
  have hes : es = [.syntax { value := s%"proto3" }] := by
    simp only [host] at h3
    split at h3
    · exact (Except.ok.inj h3).symm
    · cases h3
  subst hes
  simp only [twoJobs, List.mem_cons, List.not_mem_nil, or_false, or_self] at hj
  subst hj
  simp only [dir, protoSet, List.mem_cons, Prod.mk.injEq, List.not_mem_nil, or_false] at h1
  have key : ∀ path, (Format.transform .stable (formatsAs false Spec.Sample.config.lint path)
      [.syntax { value := s%"proto3" }] = .ok (s%"syntax = \"proto3\";\n", [])) →
      Format.transform .stable (formatsAs false Spec.Sample.config.lint path)
        [.syntax { value := s%"proto3" }] = .ok (text, []) →
      FormatsTo host .stable false Spec.Sample.config.lint path text text := by
    intro path e1 e2
    rw [e1] at e2
    cases e2
    exact ⟨_, rfl, e1⟩
  rcases h1 with ⟨rfl, rfl⟩ | ⟨rfl, rfl⟩ | ⟨rfl, rfl⟩
  · simp only [List.mem_cons, List.not_mem_nil, or_false] at h2
    rcases h2 with rfl | rfl <;> exact key _ rfl h4
  · simp only [List.mem_cons, List.not_mem_nil, or_false] at h2
    rcases h2 with rfl
    exact key _ rfl h4
  · simp only [List.mem_cons, List.not_mem_nil, or_false] at h2
    rcases h2 with rfl
    exact key _ rfl h4

/-- Two runs that take turns. -/
def taken : System := schedule [0, 1, 0, 1, 1, 0, 0, 1, 0, 1, 1, 0]
  (start world.disk (programs host true .stable twoJobs []))

/-- They end well and leave the files formatted. -/
example : Ended taken 0 (.ok ()) ∧ Ended taken 1 (.ok ()) ∧
    taken.disk s%"/w/a/two.proto" = some s%"syntax = \"proto3\";\n" :=
  ⟨⟨_, rfl, rfl⟩, ⟨_, rfl, rfl⟩, rfl⟩

end Example

/-! ### Content is lost -/

section Race

/-- A configuration with a header. -/
def raceConfig : Settings.Config :=
  { Spec.Sample.config with lint := { Spec.Sample.config.lint with fileHeader := s%"// H" } }

/-- One file. -/
def raceSet : File.ProtoSet where
  workDirPath := s%"/w"
  dirPath := s%"/w/a"
  dirPathToFiles := [(s%"/w/a", [⟨s%"/w/a/one.proto", s%"a/one.proto"⟩])]
  config := raceConfig

/-- A parser that, like the one that is used, finds nothing in an empty file, and does not mind comments. -/
def raceHost : Host :=
  { Exec.Sample.host with
    getForDir := fun _ p => if p = s%"a" then .ok raceSet else .error s%"no such directory"
    parse := fun _ c =>
      if c = [] then .ok []
      else if c = s%"syntax=\"proto3\";" then .ok [.syntax { value := s%"proto3" }]
      else if c = s%"// H\n\nsyntax = \"proto3\";\n" then
        .ok [.comment { position := { line := 1 }, lines := [s%" H"] }, .syntax { value := s%"proto3" }]
      else .error s%"cannot be parsed" }

/-- The file is not formatted. -/
def raceDisk : Disk := fun p => if p = s%"/w/a/one.proto" then some s%"syntax=\"proto3\";" else none

/-- Two runs of `format --overwrite --fix a`. -/
def raceJobs : List FormatJob :=
  [{ order := .id, args := [s%"a"], flags := { overwrite := true, fix := true }, about := { protoSet := raceSet } },
   { order := .id, args := [s%"a"], flags := { overwrite := true, fix := true }, about := { protoSet := raceSet } }]

/-- The second run reads the file while it is empty. -/
def raced : System := schedule [0, 1, 0, 0, 1, 0, 1, 1] (start raceDisk (programs raceHost false .stable raceJobs []))

theorem raceJobs_ok : FormatJobs raceHost raceJobs true raceConfig.lint where
  finds := by
    intro j hj
    simp only [raceJobs, List.mem_cons, List.not_mem_nil, or_false, or_self] at hj
    subst hj
    exact ⟨s%"a", .inl rfl, .inl ⟨rfl, rfl, rfl⟩⟩
  overwrite := by
    intro j hj
    simp only [raceJobs, List.mem_cons, List.not_mem_nil, or_false, or_self] at hj
    subst hj
    exact ⟨rfl, rfl, rfl⟩
  fix := by
    intro j hj
    simp only [raceJobs, List.mem_cons, List.not_mem_nil, or_false, or_self] at hj
    subst hj
    rfl
  lint := by
    intro j hj
    simp only [raceJobs, List.mem_cons, List.not_mem_nil, or_false, or_self] at hj
    subst hj
    rfl

theorem race_formats : FormatsTo raceHost .stable true raceConfig.lint s%"/w/a/one.proto" s%"syntax=\"proto3\";"
    s%"// H\n\nsyntax = \"proto3\";\n" := ⟨_, rfl, rfl⟩

theorem race_again (path text : Str)
    (h : Wanted raceHost .stable raceJobs true raceConfig.lint raceDisk path text) :
    FormatsTo raceHost .stable true raceConfig.lint path text text := by
  obtain ⟨_, c, hc, hF⟩ := h
  by_cases hp : path = s%"/w/a/one.proto"
  · subst hp
    cases hc
    cases formatsTo_unique hF race_formats
    exact ⟨_, rfl, rfl⟩
  · unfold raceDisk at hc
    rw [if_neg hp] at hc
    cases hc

/-- C103 is false of writes in two steps, which is what the code does: **two runs at the same time both end well, and
of the file only the header is left.** -/
theorem C103_not : ∃ (h : Host) (srt : SortSlice) (jobs : List FormatJob) (fix : Bool) (lint : Settings.LintConfig)
    (disk : Disk) (s : System) (path content text : Str),
    Prints h ∧ (∀ path text, h.writeFile path text = .ok ()) ∧ FormatJobs h jobs fix lint ∧
      (∀ path text, Wanted h srt jobs fix lint disk path text → FormatsTo h srt fix lint path text text) ∧
      Leads (start disk (programs h false srt jobs [])) s ∧ (∀ i, i < jobs.length → Ended s i (.ok ())) ∧
      disk path = some content ∧ FormatsTo h srt fix lint path content text ∧
      s.disk path = some (lint.fileHeader ++ s%"\n") ∧ s.disk path ≠ some content ∧ s.disk path ≠ some text := by
  have hd : raced.disk s%"/w/a/one.proto" = some s%"// H\n" := rfl
  refine ⟨raceHost, .stable, raceJobs, true, raceConfig.lint, raceDisk, raced, s%"/w/a/one.proto",
    s%"syntax=\"proto3\";", _, fun _ _ => rfl, fun _ _ => rfl, raceJobs_ok, race_again, reaches_schedule _ _, ?_, rfl,
    race_formats, hd, ?_, ?_⟩
  · intro i hi
    match i, hi with
    | 0, _ => exact ⟨_, rfl, rfl⟩
    | 1, _ => exact ⟨_, rfl, rfl⟩
  · rw [hd]; intro e; exact absurd (Option.some.inj e) (by decide)
  · rw [hd]; intro e; exact absurd (Option.some.inj e) (by decide)

end Race

end Verif.Props
