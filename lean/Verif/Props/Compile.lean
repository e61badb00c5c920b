import Verif.Proof.Compile
import Verif.Proof.ProtocOutput
import Verif.Spec.CompileSample

/-!
# Running protoc: schedules, temporary files, output
-/

namespace Verif.Props

open Verif Str File Text Spec Protoc

/-! ## C42 -/

/-- C42: a run ends: no schedule has more than `6 n + 2` steps, and as long as it has not
reached the end there is a next step. -/
theorem C42_terminates {n cap k : Nat} {result : Nat → List Failure × Option Err} {s : State}
    (hcap : 0 < cap) (h : Steps n cap result k State.init s) :
    k ≤ 6 * n + 2 ∧ (s.main = .done ∨ ∃ t, Step n cap result s t) := by
  constructor
  · have := left_steps h inv_init
    simp [State.left, State.init] at this
    omega
  · rcases Classical.em (s.main = .done) with hd | hd
    · exact Or.inl hd
    · exact Or.inr (progress hcap (inv_steps h inv_init) hd)

/-- C42: at no time do more than `cap` goroutines run protoc. -/
theorem C42_bounded {n cap k : Nat} {result : Nat → List Failure × Option Err} {s : State}
    (h : Steps n cap result k State.init s) :
    (s.procs.filter (fun p => p.2 = .running)).length ≤ cap := by
  have hi := inv_steps h inv_init
  have h1 := hi.cap
  rw [hi.sem] at h1
  refine Nat.le_trans ?_ h1
  refine List.Sublist.length_le ?_
  have h2 : s.procs.filter (fun p => p.2 = .running) =
      (s.procs.filter (fun p => p.2.holds)).filter (fun p => p.2 = .running) := by
    rw [List.filter_filter]
    apply List.filter_congr
    intro p _
    cases p.2 <;> simp [Phase.holds]
  rw [h2]
  exact List.filter_sublist

/-- C42: `Compile` returns. -/
theorem C42_returns (env : Env) (hcpu : 0 < env.numCPU) (c : Options) (protoSet : ProtoSet)
    (ended : Nat → Ended) (live : List Str) :
    ∃ live' r, Compiles env c protoSet ended live live' r := by
  cases hm : getCmdMetas env c protoSet live with
  | mk live' r =>
    cases r with
    | error e => exact ⟨_, _, .noCommands hm⟩
    | ok cmds =>
      have run : (c.doGen = true → (makeGenDirs env protoSet).2 = none) →
          ∃ live' r, Compiles env c protoSet ended live live' r := by
        intro hg
        obtain ⟨k, s, hs, hd⟩ := reaches (n := cmds.length) (result := resultOf cmds ended) hcpu
          State.init inv_init
        exact ⟨_, _, .ran hm hg hs hd⟩
      cases hg : c.doGen with
      | false => exact run (fun h => by rw [hg] at h; cases h)
      | true =>
        cases hd : (makeGenDirs env protoSet).2 with
        | some e => exact ⟨_, _, .noDirs hm hg hd⟩
        | none => exact run (fun _ => hd)

/-- C42: two schedules of the same runs of protoc leave the same files and end alike: both in
an error, or in the same result. -/
theorem C42_same {env : Env} {c : Options} {protoSet : ProtoSet} {ended : Nat → Ended}
    {live l l' : List Str} {r r' : Except Err CompileResult}
    (h : Compiles env c protoSet ended live l r) (h' : Compiles env c protoSet ended live l' r') :
    l = l' ∧ SameVerdict r r' := by
  cases h with
  | noCommands h1 =>
    cases h' with
    | noCommands h2 => rw [h1] at h2; cases h2; exact ⟨rfl, trivial⟩
    | noDirs h2 => rw [h1] at h2; cases h2
    | ran h2 => rw [h1] at h2; cases h2
  | noDirs h1 hg hd =>
    cases h' with
    | noCommands h2 => rw [h1] at h2; cases h2
    | noDirs h2 => rw [h1] at h2; cases h2; exact ⟨rfl, trivial⟩
    | ran h2 hn => rw [hn hg] at hd; cases hd
  | ran h1 hn hs hd =>
    cases h' with
    | noCommands h2 => rw [h1] at h2; cases h2
    | noDirs h2 hg hd => rw [hn hg] at hd; cases hd
    | ran h2 hn' hs' hd' =>
      rw [h1] at h2; cases h2
      refine ⟨rfl, ?_⟩
      obtain ⟨rec, hp, hf, he⟩ := done_results hs hd
      obtain ⟨rec', hp', hf', he'⟩ := done_results hs' hd'
      have hpp := hp.trans hp'.symm
      rw [hf, he, hf', he']
      exact afterWait_perm (hpp.flatMap_right _) (hpp.flatMap_right _)

/-- The failures and errors of all commands, in the order of the commands. -/
def allFailures (cmds : List CmdMeta) (ended : Nat → Ended) : List Failure :=
  (List.range cmds.length).flatMap fun i => (resultOf cmds ended i).1

/-- The texts of the errors of all commands, in the order of the commands. -/
def allErrors (cmds : List CmdMeta) (ended : Nat → Ended) : List Err :=
  (List.range cmds.length).flatMap fun i => (resultOf cmds ended i).2.toList

/-- C42: what a run of the commands ends in. If a command gave an error it is an error with the
texts of all of them (in an order that depends on the schedule); otherwise, if a command gave
failures, it is all of them, sorted; otherwise it is the descriptor sets of the commands that
make one, in the order of the commands, unless one of them cannot be read. -/
theorem C42_outcome {env : Env} {c : Options} {protoSet : ProtoSet} {ended : Nat → Ended}
    {live live' l : List Str} {cmds : List CmdMeta} {r : Except Err CompileResult}
    (h : Compiles env c protoSet ended live l r)
    (hm : getCmdMetas env c protoSet live = (live', .ok cmds))
    (hg : c.doGen = true → (makeGenDirs env protoSet).2 = none) :
    (allErrors cmds ended ≠ [] →
      ∃ texts : List Err, texts.Perm (allErrors cmds ended) ∧
        r = .error (join s%"\n" (texts.filter (· ≠ [])))) ∧
    (allErrors cmds ended = [] → allFailures cmds ended ≠ [] →
      r = .ok ⟨sortFailures (allFailures cmds ended), []⟩) ∧
    (allErrors cmds ended = [] → allFailures cmds ended = [] →
      (∀ content : Str → Descriptor.FileSet,
        (∀ m ∈ cmds, m.descriptorSetTempFilePath ≠ [] →
          env.readSet m.descriptorSetTempFilePath = .ok (content m.descriptorSetTempFilePath)) →
        r = .ok ⟨[], (cmds.filter (·.descriptorSetTempFilePath ≠ [])).map fun m =>
          ⟨content m.descriptorSetTempFilePath, m.protoSet, m.dirPath, m.protoFiles⟩⟩) ∧
      ((∃ m ∈ cmds, m.descriptorSetTempFilePath ≠ [] ∧
          ∃ e, env.readSet m.descriptorSetTempFilePath = .error e) → ∃ e, r = .error e)) := by
  cases h with
  | noCommands h1 => rw [hm] at h1; cases h1
  | noDirs h1 hgen hd => rw [hg hgen] at hd; cases hd
  | ran h1 hn hs hd =>
    rw [hm] at h1; cases h1
    obtain ⟨rec, hp, hf, he⟩ := done_results hs hd
    rw [hf, he]
    have hpf : (rec.flatMap fun i => (resultOf cmds ended i).1).Perm (allFailures cmds ended) :=
      hp.flatMap_right _
    have hpe : (rec.flatMap fun i => (resultOf cmds ended i).2.toList).Perm (allErrors cmds ended) :=
      hp.flatMap_right _
    generalize (rec.flatMap fun i => (resultOf cmds ended i).1) = fs at hpf ⊢
    generalize (rec.flatMap fun i => (resultOf cmds ended i).2.toList) = es at hpe ⊢
    refine ⟨?_, ?_, ?_⟩
    · intro hne
      refine ⟨es, hpe, ?_⟩
      unfold afterWait
      rw [if_pos]
      rw [hpe.length_eq]
      exact List.length_pos_iff.2 hne
    · intro hz hne
      unfold afterWait
      rw [if_neg (by rw [hpe.length_eq, hz]; simp), if_pos (by
        rw [hpf.length_eq]; exact List.length_pos_iff.2 hne), C18_canonical _ _ hpf]
    · intro hz hz'
      unfold afterWait
      rw [if_neg (by rw [hpe.length_eq, hz]; simp), if_neg (by rw [hpf.length_eq, hz']; simp)]
      constructor
      · intro content hc
        rw [getFileDescriptorSets_ok hc]
      · rintro ⟨m, hmem, hne, e, herr⟩
        obtain ⟨e', he'⟩ := getFileDescriptorSets_error hmem hne herr
        rw [he']
        exact ⟨e', rfl⟩

/-- Two runs of protoc in which both commands of a set fail to start. -/
def bothFail : Nat → List Failure × Option Err
  | 0 => ([], some s%"first")
  | _ => ([], some s%"second")

/-- C42: the order of the error texts depends on the schedule. -/
theorem C42_error_order : (∃ k s, Steps 2 2 bothFail k State.init s ∧ s.main = .done ∧
      s.errs = [s%"first", s%"second"]) ∧
    (∃ k s, Steps 2 2 bothFail k State.init s ∧ s.main = .done ∧
      s.errs = [s%"second", s%"first"]) := by
  have start : Steps 2 2 bothFail 5 State.init
      ⟨.waiting, [(0, .running), (1, .running)], 2, 2, [], []⟩ :=
    .tail (.tail (.tail (.tail (.tail (.refl _) (.add (by decide))) (.start (by decide)))
      (.add (by decide))) (.start (by decide))) .endLoop
  constructor
  · refine ⟨14, ⟨.done, [], 0, 0, [], [s%"first", s%"second"]⟩, ?_, rfl, rfl⟩
    exact .tail (.tail (.tail (.tail (.tail (.tail (.tail (.tail (.tail start
      (.run (before := []))) (.record (before := []))) (.release (before := [])))
      (.finish (before := []))) (.run (before := []) (after := [])))
      (.record (before := []) (after := []))) (.release (before := []) (after := [])))
      (.finish (before := []) (after := []))) .wait
  · refine ⟨14, ⟨.done, [], 0, 0, [], [s%"second", s%"first"]⟩, ?_, rfl, rfl⟩
    exact .tail (.tail (.tail (.tail (.tail (.tail (.tail (.tail (.tail start
      (.run (before := [(0, .running)]) (after := []))) (.record (before := [(0, .running)]) (after := [])))
      (.release (before := [(0, .running)]) (after := [])))
      (.finish (before := [(0, .running)]) (after := []))) (.run (before := []) (after := [])))
      (.record (before := []) (after := []))) (.release (before := []) (after := [])))
      (.finish (before := []) (after := []))) .wait

/-- Three commands are made for the three directories of the sample, each with a temporary
file, so that the hypotheses of `C42_outcome` hold there. -/
example : ∃ live' cmds, getCmdMetas Sample.env { doFileDescriptorSet := true } Sample.protoSet [] =
      (live', .ok cmds) ∧ cmds.length = 3 ∧ tempsOf cmds = live' ∧ live'.length = 3 :=
  ⟨_, _, rfl, by decide +kernel, by decide +kernel, by decide +kernel⟩

/-- With plugins there is one more command for each plugin and directory. -/
example : ∃ live' cmds, getCmdMetas Sample.env { doFileDescriptorSet := true, doGen := true }
      Sample.protoSet [] = (live', .ok cmds) ∧ cmds.length = 9 ∧ live'.length = 3 ∧
      (makeGenDirs Sample.env Sample.protoSet).2 = none :=
  ⟨_, _, rfl, by decide +kernel, by decide +kernel, by decide +kernel⟩

/-! ## C43 -/

/-- C43: when `Compile` returns, with whatever result, the temporary files are those that were
there before. -/
theorem C43_compile {env : Env} (hf : FreshTemp env) {c : Options} {protoSet : ProtoSet}
    {ended : Nat → Ended} {live live' : List Str} {r : Except Err CompileResult}
    (h : Compiles env c protoSet ended live live' r) : live' = live := by
  cases h with
  | noCommands h1 => exact getCmdMetas_error hf h1
  | noDirs h1 => exact cleanCmdMetas_tracked (getCmdMetas_ok hf h1)
  | ran h1 => exact cleanCmdMetas_tracked (getCmdMetas_ok hf h1)

/-- C43: the same for the dry run. -/
theorem C43_dry_run {env : Env} (hf : FreshTemp env) (c : Options) (protoSet : ProtoSet)
    (live : List Str) : (protocCommands env c protoSet live).1 = live := by
  unfold protocCommands
  split
  next h => exact getCmdMetas_error hf h
  next h => exact cleanCmdMetas_tracked (getCmdMetas_ok hf h)

/-- The descriptor sets are read before the files are removed: every command that makes a set
has a file of its own, which exists while the commands run. -/
theorem C43_while_running {env : Env} (hf : FreshTemp env) {c : Options} {protoSet : ProtoSet}
    {live live' : List Str} {cmds : List CmdMeta}
    (h : getCmdMetas env c protoSet live = (live', .ok cmds)) :
    ∀ m ∈ cmds, m.descriptorSetTempFilePath ≠ [] →
      m.descriptorSetTempFilePath ∈ live' ∧ m.descriptorSetTempFilePath ∉ live := by
  intro m hm hne
  obtain ⟨h1, h2⟩ := getCmdMetas_ok hf h
  simp only at h1 h2
  have hmem : m.descriptorSetTempFilePath ∈ tempsOf cmds := by
    unfold tempsOf
    rw [List.mem_filter]
    exact ⟨List.mem_map.2 ⟨m, hm, rfl⟩, by simpa using hne⟩
  exact ⟨by rw [h1]; simp [hmem], h2 _ hmem⟩

/-- A system where `ProtocPath` fails for the second directory. -/
def failingEnv : Env :=
  { Sample.env with protocPath := fun d => if d = s%"/w/b" then .error s%"no protoc" else .ok s%"protoc" }

/-- One temporary file is made there and removed again. -/
example : FreshTemp failingEnv ∧
    (cmdMetasLoop failingEnv { doFileDescriptorSet := true } Sample.protoSet
      Sample.protoSet.dirPathToFiles [s%"/tmp/x"] []).1.length = 2 ∧
    Compiles failingEnv { doFileDescriptorSet := true } Sample.protoSet (fun _ => .exited none [])
      [s%"/tmp/x"] [s%"/tmp/x"] (.error s%"no protoc") :=
  ⟨Sample.env_fresh, by decide +kernel, .noCommands rfl⟩

/-! ## C46 -/

/-- C46: a line that protoc writes is ignored in exactly these cases: it reports an unused import
and these are allowed, or it says that an import was not found or had errors, which another line
says too. Every other line becomes a failure. -/
theorem C46_line (m : CmdMeta) (line : Str) (h : '\n' ∉ line) :
    (parseProtocLine m line = none ↔ IgnoredLine m.protoSet.config.compile.allowUnusedImports line) ∧
    (¬ IgnoredLine m.protoSet.config.compile.allowUnusedImports line →
      ∃ f, parseProtocLine m line = some f) := by
  refine ⟨parseProtocLine_none h, fun hn => ?_⟩
  cases hp : parseProtocLine m line with
  | some f => exact ⟨f, rfl⟩
  | none => exact absurd ((parseProtocLine_none h).1 hp) hn

/-- C46: the failures of an output are those of its lines, in order; blank lines give none. -/
theorem C46_output (m : CmdMeta) (output : Str) :
    parseProtocOutput m output = (linesOf output).filterMap (parseProtocLine m) :=
  parseProtocOutput_eq

/-- C46: a line `file:line:column:message` becomes a failure at that place. The file is the one of
the command whose display path ends with the name in the line, if there is just one, and
otherwise the name in the line. -/
theorem C46_position (m : CmdMeta) (file message : Str) (l c : Nat) (hf : ':' ∉ file)
    (hm : ':' ∉ message) (hl : l < 2 ^ 63) (hc : c < 2 ^ 63) (hne : trimSpace message ≠ [])
    (hn : '\n' ∉ file ++ message) (hp : ¬ PluginLine (file ++ s%":" ++ natStr l ++ s%":" ++ natStr c ++ s%":" ++ message))
    (hd : ∀ f ∈ m.protoFiles, f.displayPath ≠ []) :
    parseProtocLine m (file ++ s%":" ++ natStr l ++ s%":" ++ natStr c ++ s%":" ++ message) =
      some ⟨fileNamed m.protoFiles file, l, c, [], trimSpace message⟩ := by
  have hcol : ∀ k, ':' ∉ natStr k := fun k hk => by
    have := natStr_digits k _ hk
    simp [isDigit] at this
  have hnl : ∀ k, '\n' ∉ natStr k := fun k hk => by
    have := natStr_digits k _ hk
    simp [isDigit] at this
  have hsplit : splitChar ':' (file ++ s%":" ++ natStr l ++ s%":" ++ natStr c ++ s%":" ++ message) =
      [file, natStr l, natStr c, message] := by
    have := splitChar_join ':' (l := [file, natStr l, natStr c, message]) (by simp) (by
      intro w hw
      simp at hw
      rcases hw with rfl | rfl | rfl | rfl
      · exact hf
      · exact hcol _
      · exact hcol _
      · exact hm)
    rw [← this]
    simp [join]
  have hnew : '\n' ∉ file ++ s%":" ++ natStr l ++ s%":" ++ natStr c ++ s%":" ++ message := by
    have h1 := hnl l
    have h2 := hnl c
    simp at hn
    simp [h1, h2, hn]
  generalize hline : file ++ s%":" ++ natStr l ++ s%":" ++ natStr c ++ s%":" ++ message = line at *
  unfold parseProtocLine
  have hr : firstRule m line pluginRules = none := by
    rw [firstRule_none]
    intro rule hr hmatch
    exact hp ((matches_plugin hnew).1 ⟨rule, hr, hmatch⟩)
  rw [hr]
  simp only [hsplit]
  rw [if_neg hne]
  unfold located
  rw [atoi_natStr hl, atoi_natStr hc]
  simp only
  rw [bestFilePath_eq hd]

/-- C46: if protoc cannot be run or ends with a status other than 0, there is a failure or an
error. -/
theorem C46_failed_run (m : CmdMeta) (e : Err) (output : Str) :
    (runCmdMeta m (.notRun e)).2 = some e ∧
    ((runCmdMeta m (.exited (some e) output)).1 ≠ [] ∨
      (runCmdMeta m (.exited (some e) output)).2 = some e) := by
  refine ⟨rfl, ?_⟩
  unfold runCmdMeta
  dsimp only
  cases parseProtocOutput m (trimSpace output) with
  | nil => exact Or.inr rfl
  | cons f fs => exact Or.inl (by simp)

theorem runCmdMeta_silent {m : CmdMeta} {ended : Ended}
    (h : runCmdMeta m ended = ([], none)) (hs : ended ≠ .signalled none) :
    Silent m.protoSet.config.compile.allowUnusedImports ended := by
  cases ended with
  | notRun e => cases h
  | signalled kill =>
    cases kill with
    | none => exact absurd rfl hs
    | some e => cases h
  | exited status output =>
    unfold runCmdMeta at h
    dsimp only at h
    cases hp : parseProtocOutput m (trimSpace output) with
    | nil =>
      rw [hp] at h
      cases status with
      | some e => cases h
      | none =>
        refine ⟨rfl, ?_⟩
        rw [← linesOf_trimSpace]
        exact parseProtocOutput_nil.1 hp
    | cons f fs =>
      rw [hp] at h
      cases h

/-- C46: if `Compile` ends without an error and without failures then every run of protoc ended
with status 0 and every line of its output is ignored. Missing: the runs that were ended by a
signal to prototool, see `C46_not`. -/
theorem C46_success_partial {env : Env} {c : Options} {protoSet : ProtoSet} {ended : Nat → Ended}
    {live live' l : List Str} {cmds : List CmdMeta} {sets : List FileDescriptorSet}
    (h : Compiles env c protoSet ended live l (.ok ⟨[], sets⟩))
    (hm : getCmdMetas env c protoSet live = (live', .ok cmds))
    (hs : ∀ i, ended i ≠ .signalled none) :
    ∀ i (hi : i < cmds.length),
      Silent cmds[i].protoSet.config.compile.allowUnusedImports (ended i) := by
  have hgen : c.doGen = true → (makeGenDirs env protoSet).2 = none := by
    intro hg
    generalize hr : (Except.ok ⟨[], sets⟩ : Except Err CompileResult) = r at h
    cases h with
    | noCommands => cases hr
    | noDirs => cases hr
    | ran _ hn => exact hn hg
  obtain ⟨h1, h2, _⟩ := C42_outcome h hm hgen
  have he : allErrors cmds ended = [] := by
    rcases Classical.em (allErrors cmds ended = []) with he | he
    · exact he
    · obtain ⟨_, _, hx⟩ := h1 he
      cases hx
  have hf : allFailures cmds ended = [] := by
    rcases Classical.em (allFailures cmds ended = []) with hf | hf
    · exact hf
    · have hx := h2 he hf
      injection hx with hx
      injection hx with hx
      have hp := (C18_sorted (allFailures cmds ended)).1
      rw [← hx] at hp
      exact absurd hp.symm.eq_nil hf
  intro i hi
  have e1 : (resultOf cmds ended i).2 = none := by
    have := List.flatMap_eq_nil_iff.1 he i (List.mem_range.2 hi)
    cases hx : (resultOf cmds ended i).2 with
    | none => rfl
    | some e => rw [hx] at this; cases this
  have e2 : (resultOf cmds ended i).1 = [] :=
    List.flatMap_eq_nil_iff.1 hf i (List.mem_range.2 hi)
  have e3 : resultOf cmds ended i = runCmdMeta cmds[i] (ended i) := by
    unfold resultOf
    rw [List.getElem?_eq_getElem hi]
  rw [e3] at e1 e2
  refine runCmdMeta_silent ?_ (hs i)
  cases hr : runCmdMeta cmds[i] (ended i) with
  | mk a b => rw [hr] at e1 e2; simp only at e1 e2; rw [e1, e2]

/-- C46 does not hold as stated: if prototool gets a signal while protoc runs, it kills protoc and
`Compile` ends in success. -/
theorem C46_not : ∃ (env : Env) (c : Options) (protoSet : ProtoSet) (ended : Nat → Ended)
    (live' : List Str) (cmds : List CmdMeta) (l : List Str) (sets : List FileDescriptorSet),
    getCmdMetas env c protoSet [] = (live', .ok cmds) ∧ cmds.length = 3 ∧
    (∀ i, ended i = .signalled none) ∧ Compiles env c protoSet ended [] l (.ok ⟨[], sets⟩) := by
  obtain ⟨l, r, h⟩ := C42_returns Sample.env (by decide) { doFileDescriptorSet := true }
    Sample.protoSet (fun _ => .signalled none) []
  have := (C42_outcome h rfl (fun h => by cases h)).2.2 (by decide +kernel) (by decide +kernel)
  have := this.1 (fun _ => []) (fun _ _ _ => rfl)
  rw [this] at h
  exact ⟨Sample.env, { doFileDescriptorSet := true }, Sample.protoSet, fun _ => .signalled none, _, _, l,
    _, rfl, by decide +kernel, fun _ => rfl, h⟩

/-- A command for two files. -/
def oneTwo : CmdMeta :=
  ⟨s%"protoc", [], Sample.protoSet, s%"/w/a",
    [⟨s%"/w/a/one.proto", s%"a/one.proto"⟩, ⟨s%"/w/a/two.proto", s%"a/two.proto"⟩], []⟩

/-- Non-vacuity for C46: a line with a position, a line of a plugin, a line that is ignored and
one that is not. -/
example : (parseProtocLine oneTwo s%"two.proto:3:15: Expected identifier." =
      some ⟨s%"a/two.proto", 3, 15, [], s%"Expected identifier."⟩) ∧
    parseProtocLine oneTwo s%"two.proto: Import \"x.proto\" was not found or had errors." = none ∧
    parseProtocOutput oneTwo s%"two.proto: Import \"x.proto\" was not found or had errors.\n\nx.proto: File not found." ≠ [] :=
  by decide +kernel

end Verif.Props
