import Verif.Proof.ExecLint
import Verif.Proof.ExecPrint
import Verif.Props.Compile
import Verif.Props.CompileArgs
import Verif.Spec.ExecCompile

/-!
# A command ends well only if protoc accepted the files (C85)
-/

namespace Verif.Props

open Verif Verif.Spec Str File Protoc Exec

theorem pointwise_left {α β : Type} {R : α → β → Prop} {a : List α} {b : List β} (h : Pointwise R a b) :
    ∀ x ∈ a, ∃ y ∈ b, R x y := by
  induction h with
  | nil => intro x hx; cases hx
  | cons h _ ih =>
    intro x hx
    rcases List.mem_cons.1 hx with e | hx
    · exact ⟨_, by simp, e ▸ h⟩
    · obtain ⟨y, hy, hr⟩ := ih x hx
      exact ⟨y, by simp [hy], hr⟩

theorem pointwise_right {α β : Type} {R : α → β → Prop} {a : List α} {b : List β} (h : Pointwise R a b) :
    ∀ y ∈ b, ∃ x ∈ a, R x y := by
  induction h with
  | nil => intro x hx; cases hx
  | cons h _ ih =>
    intro x hx
    rcases List.mem_cons.1 hx with e | hx
    · exact ⟨_, by simp, e ▸ h⟩
    · obtain ⟨y, hy, hr⟩ := ih x hx
      exact ⟨y, by simp [hy], hr⟩

/-- Every command is for the proto set. -/
theorem commandsOf_set {t : Toolchain} {flags : CompileFlags} {disk : Disk} {ps : ProtoSet}
    {cmds : List CmdMeta} (h : CommandsOf t flags disk ps cmds) : ∀ cmd ∈ cmds, cmd.protoSet = ps := by
  obtain ⟨live, h⟩ := h
  obtain ⟨dirs, _, hc⟩ := C73_commands h
  intro cmd hm
  obtain ⟨_, _, hx⟩ := pointwise_right hc cmd hm
  exact hx.set

/-- Every directory has a command for each job. -/
theorem commandsOf_dir {t : Toolchain} {flags : CompileFlags} {disk : Disk} {ps : ProtoSet}
    {cmds : List CmdMeta} (h : CommandsOf t flags disk ps cmds) {d : Str × List ProtoFile}
    (hd : d ∈ ps.dirPathToFiles) (hp : ps.dirPath <+: d.1) {j : Job}
    (hj : j ∈ jobs (compilerOptions flags) ps.config.gen.plugins) :
    ∃ cmd ∈ cmds, CommandFor (t.env disk) (compilerOptions flags) ps d j cmd := by
  obtain ⟨live, h⟩ := h
  obtain ⟨dirs, hperm, hc⟩ := C73_commands h
  have hmem : d ∈ dirs := hperm.mem_iff.2 (by
    rw [List.mem_filter]
    exact ⟨hd, hasPrefix_prefix.2 hp⟩)
  obtain ⟨cmd, h1, h2⟩ := pointwise_left hc (d, j) (by
    rw [List.mem_flatMap]
    exact ⟨d, hmem, List.mem_map.2 ⟨j, hj, rfl⟩⟩)
  exact ⟨cmd, h1, h2⟩

/-- No command is run without arguments. -/
theorem commandsOf_args {t : Toolchain} {flags : CompileFlags} {disk : Disk} {ps : ProtoSet}
    {cmds : List CmdMeta} (h : CommandsOf t flags disk ps cmds) : ∀ cmd ∈ cmds, cmd.args ≠ [] := by
  obtain ⟨live, h⟩ := h
  obtain ⟨dirs, _, hc⟩ := C73_commands h
  intro cmd hm
  obtain ⟨⟨d, j⟩, _, hx⟩ := pointwise_right hc cmd hm
  obtain ⟨_, _, out, _, _, hj, he⟩ := hx.args
  have : out ≠ [] := by
    cases j with
    | descriptorSet => rintro rfl; simp [JobArgs] at hj
    | check => rintro rfl; simp [JobArgs] at hj
    | plugin p =>
      obtain ⟨_, b, f, o, _, _, _, rfl⟩ := hj
      simp [pluginArgs]
  rw [he]
  simp [this]

theorem silent_runCmdMeta {m : CmdMeta} {ended : Ended}
    (h : Silent m.protoSet.config.compile.allowUnusedImports ended) : runCmdMeta m ended = ([], none) := by
  cases ended with
  | notRun e => cases h
  | signalled kill => cases h
  | exited status output =>
    obtain ⟨rfl, h⟩ := h
    unfold runCmdMeta
    dsimp only
    rw [parseProtocOutput_nil.2 (by rw [linesOf_trimSpace]; exact h)]

theorem tells_runCmdMeta {m : CmdMeta} {ended : Ended}
    (h : Tells m.protoSet.config.compile.allowUnusedImports ended) :
    runCmdMeta m ended = (failuresOf m ended, none) := by
  cases ended with
  | notRun e => cases h
  | signalled kill => cases h
  | exited status output =>
    have e : parseProtocOutput m (trimSpace output) = failuresOf m (.exited status output) := by
      rw [parseProtocOutput_eq, linesOf_trimSpace]; rfl
    unfold runCmdMeta
    dsimp only
    rw [e]
    cases status with
    | none => cases failuresOf m (.exited none output) <;> rfl
    | some s =>
      obtain ⟨line, hl, hn⟩ := h (by simp)
      cases hf : failuresOf m (.exited (some s) output) with
      | cons f fs => rfl
      | nil =>
        rw [← e] at hf
        exact absurd (parseProtocOutput_nil.1 hf line (by rw [linesOf_trimSpace]; exact hl)) hn

theorem failuresOf_nil {m : CmdMeta} {ended : Ended}
    (h : Tells m.protoSet.config.compile.allowUnusedImports ended) :
    failuresOf m ended = [] ↔ Silent m.protoSet.config.compile.allowUnusedImports ended := by
  constructor
  · intro hf
    have := tells_runCmdMeta h
    rw [hf] at this
    exact runCmdMeta_silent this (by rintro rfl; cases h)
  · intro hs
    have h1 := tells_runCmdMeta h
    rw [silent_runCmdMeta hs] at h1
    injection h1 with h1 _
    exact h1.symm

theorem silent_tells {b : Bool} {ended : Ended} (h : Silent b ended) : Tells b ended := by
  cases ended with
  | notRun e => cases h
  | signalled kill => cases h
  | exited status output => exact fun hs => absurd h.1 hs

/-- If compiling gives no failures, the commands could be made and protoc had nothing to say. -/
theorem uses_ok {h : Host} {t : Toolchain} (u : Uses h t) {flags : CompileFlags} {disk : Disk}
    (hs : Undisturbed t disk) {ps : ProtoSet} {sets : List Descriptor.FileSet}
    (hc : h.compile flags disk ps = .ok ([], sets)) :
    ∃ cmds, CommandsOf t flags disk ps cmds ∧ DirsOf t flags disk ps ∧
      ∀ cmd ∈ cmds, Silent ps.config.compile.allowUnusedImports (t.protoc disk cmd) := by
  obtain ⟨ended, live, r, h1, h2, h3⟩ := u.compile flags disk ps
  rw [hc] at h3
  cases r with
  | error e => cases h3
  | ok r =>
    obtain ⟨fs, sets'⟩ := r
    injection h3 with h3
    injection h3 with h3 _
    subst h3
    have hdirs : DirsOf t flags disk ps := by
      intro hg
      generalize hr : (Except.ok ⟨[], sets'⟩ : Except Err CompileResult) = r at h1
      cases h1 with
      | noCommands => cases hr
      | noDirs => cases hr
      | ran _ hn => exact hn hg
    cases hm : getCmdMetas (t.env disk) (compilerOptions flags) ps (t.live disk) with
    | mk live' r =>
      cases r with
      | error e =>
        generalize hr : (Except.ok ⟨[], sets'⟩ : Except Err CompileResult) = r at h1
        cases h1 with
        | noCommands => cases hr
        | noDirs => cases hr
        | ran hx => rw [hm] at hx; cases hx
      | ok cmds =>
        have hco : CommandsOf t flags disk ps cmds := ⟨live', hm⟩
        refine ⟨cmds, hco, hdirs, ?_⟩
        intro cmd hcmd
        obtain ⟨i, hi, rfl⟩ := List.getElem_of_mem hcmd
        have hx : ∀ j (hj : j < cmds.length), ended j = t.protoc disk cmds[j] := h2 cmds hco
        -- only the runs of the commands matter
        let ended' : Nat → Ended := fun j => if j < cmds.length then ended j else .notRun []
        have hres : ∀ j, resultOf cmds ended' j = resultOf cmds ended j := by
          intro j
          unfold resultOf
          by_cases hj : j < cmds.length
          · simp only [ended', hj, if_true]
          · rw [List.getElem?_eq_none (by omega)]
        have h1' : Protoc.Compiles (t.env disk) (compilerOptions flags) ps ended' (t.live disk) live
            (.ok ⟨[], sets'⟩) := by
          generalize hr : (Except.ok ⟨[], sets'⟩ : Except Err CompileResult) = r at h1
          cases h1 with
          | noCommands => cases hr
          | noDirs => cases hr
          | @ran _ _ k _ ha hb hc hd =>
            refine .ran (k := k) ha hb ?_ hd
            rw [hm] at ha
            cases ha
            rw [show resultOf cmds ended' = resultOf cmds ended from funext hres]
            exact hc
        have := C46_success_partial h1' hm (fun j => by
          by_cases hj : j < cmds.length
          · simp only [ended', hj, if_true]
            rw [hx j hj]
            exact hs _
          · simp [ended', hj]) i hi
        simp only [ended', hi, if_true] at this
        rw [hx i hi, commandsOf_set hco _ (List.getElem_mem hi)] at this
        exact this

theorem allErrors_none {t : Toolchain} {disk : Disk} {cmds : List CmdMeta} {ended : Nat → Ended}
    (he : ∀ i (hi : i < cmds.length), ended i = t.protoc disk cmds[i])
    (ht : ∀ cmd ∈ cmds, Tells cmd.protoSet.config.compile.allowUnusedImports (t.protoc disk cmd)) :
    allErrors cmds ended = [] ∧
      allFailures cmds ended = cmds.flatMap fun cmd => failuresOf cmd (t.protoc disk cmd) := by
  have key : ∀ i (hi : i < cmds.length),
      resultOf cmds ended i = (failuresOf cmds[i] (t.protoc disk cmds[i]), none) := by
    intro i hi
    unfold resultOf
    rw [List.getElem?_eq_getElem hi]
    dsimp only
    rw [he i hi]
    exact tells_runCmdMeta (ht _ (List.getElem_mem hi))
  constructor
  · unfold allErrors
    rw [List.flatMap_eq_nil_iff]
    intro i hi
    rw [key i (List.mem_range.1 hi)]
    rfl
  · unfold allFailures
    have : ((List.range cmds.length).map fun i => (resultOf cmds ended i).1) =
        cmds.map fun cmd => failuresOf cmd (t.protoc disk cmd) := by
      apply List.ext_getElem (by simp)
      intro i h1 h2
      simp only [List.length_map, List.length_range] at h1
      simp [key i h1]
    rw [List.flatMap_def, List.flatMap_def, this]

/-- What compiling gives if protoc says something about every run that fails: the failures of all
lines, if there are any. -/
theorem uses_tells {h : Host} {t : Toolchain} (u : Uses h t) {flags : CompileFlags} {disk : Disk}
    {ps : ProtoSet} {cmds : List CmdMeta} (hc : CommandsOf t flags disk ps cmds) (hd : DirsOf t flags disk ps)
    (ht : ∀ cmd ∈ cmds, Tells ps.config.compile.allowUnusedImports (t.protoc disk cmd)) :
    ((∃ cmd ∈ cmds, ¬ Silent ps.config.compile.allowUnusedImports (t.protoc disk cmd)) →
      h.compile flags disk ps = .ok (Text.sortFailures
        (cmds.flatMap fun cmd => failuresOf cmd (t.protoc disk cmd)), [])) ∧
    ((∀ cmd ∈ cmds, Silent ps.config.compile.allowUnusedImports (t.protoc disk cmd)) →
      flags.doFileDescriptorSet = false → h.compile flags disk ps = .ok ([], [])) := by
  obtain ⟨ended, live, r, h1, h2, h3⟩ := u.compile flags disk ps
  have hset := commandsOf_set hc
  have ht' : ∀ cmd ∈ cmds, Tells cmd.protoSet.config.compile.allowUnusedImports (t.protoc disk cmd) := by
    intro cmd hm; rw [hset cmd hm]; exact ht cmd hm
  obtain ⟨he, hf⟩ := allErrors_none (h2 cmds hc) ht'
  have hc' := hc
  obtain ⟨live', hm⟩ := hc
  obtain ⟨_, o2, o3⟩ := C42_outcome h1 hm hd
  constructor
  · rintro ⟨cmd, hcm, hn⟩
    have hne : allFailures cmds ended ≠ [] := by
      rw [hf]
      intro e
      rw [List.flatMap_eq_nil_iff] at e
      have := (failuresOf_nil (ht' cmd hcm)).1 (e cmd hcm)
      rw [hset cmd hcm] at this
      exact hn this
    rw [h3, o2 he hne, hf]
    rfl
  · intro hsil hset'
    have hnil : allFailures cmds ended = [] := by
      rw [hf, List.flatMap_eq_nil_iff]
      intro cmd hcm
      exact (failuresOf_nil (ht' cmd hcm)).2 (by rw [hset cmd hcm]; exact hsil cmd hcm)
    have htemp : ∀ cmd ∈ cmds, cmd.descriptorSetTempFilePath = [] := by
      intro cmd hcm
      obtain ⟨dirs, _, hpw⟩ := C73_commands hm
      obtain ⟨⟨d, j⟩, hx, hcf⟩ := pointwise_right hpw cmd hcm
      obtain ⟨_, _, out, _, _, hj, _⟩ := hcf.args
      rw [List.mem_flatMap] at hx
      obtain ⟨d', _, hx⟩ := hx
      obtain ⟨j', hj', e⟩ := List.mem_map.1 hx
      cases e
      cases j with
      | check => exact hj.1
      | plugin p => exact hj.1
      | descriptorSet =>
        exfalso
        unfold jobs compilerOptions at hj'
        simp only [hset', Bool.false_eq_true, if_false, List.nil_append] at hj'
        split at hj'
        · simp at hj'
          split at hj' <;> simp at hj'
        · simp at hj'
    rw [h3, (o3 he hnil).1 (fun _ => []) (fun m hm' hx => absurd (htemp m hm') hx)]
    have : cmds.filter (fun m => decide (m.descriptorSetTempFilePath ≠ [])) = [] := by
      rw [List.filter_eq_nil_iff]
      intro m hm'
      simp [htemp m hm']
    unfold summary
    simp only [this, List.map_nil]

/-! ## The theorems -/

/-- C85: whenever a command goes on after compiling, protoc accepted every directory below that of
the proto set, for every output asked for. -/
theorem C85_accepted (h : Host) (t : Toolchain) (u : Uses h t) (flags : CompileFlags) (m : Meta)
    (disk : Disk) (hs : Undisturbed t disk) (hc : Exec.Compiles h flags m disk) :
    ∀ d ∈ m.protoSet.dirPathToFiles, m.protoSet.dirPath <+: d.1 →
      ∀ j ∈ jobs (compilerOptions flags) m.protoSet.config.gen.plugins,
        Accepted t flags disk m.protoSet d j := by
  obtain ⟨sets, hc⟩ := hc
  obtain ⟨cmds, h1, _, h2⟩ := uses_ok u hs hc
  intro d hd hp j hj
  obtain ⟨cmd, hm, hf⟩ := commandsOf_dir h1 hd hp hj
  exact ⟨cmd, hf, h2 cmd hm⟩

/-- C85: `compile` ends well exactly if the argument stands for a directory or file, the commands
can be made, and protoc accepts each. It then prints nothing. -/
theorem C85_compile (h : Host) (hp : Prints h) (he : ErrorFormatKnown h) (t : Toolchain) (u : Uses h t)
    (args : List Str) (w w' : World) (hs : Undisturbed t w.disk) :
    compileCmd h args false w = (w', .ok ()) ↔
      w' = w ∧ ∃ m cmds, Finds h args m ∧ CommandsOf t {} w.disk m.protoSet cmds ∧
        ∀ cmd ∈ cmds, Silent m.protoSet.config.compile.allowUnusedImports (t.protoc w.disk cmd) := by
  unfold compileCmd
  constructor
  · intro e
    obtain ⟨w1, m, h1, h2⟩ := bind_ok.1 e
    obtain ⟨rfl, hm⟩ := getMeta_ok.1 h1
    obtain ⟨w2, sets, h3, h4⟩ := bind_ok.1 h2
    obtain ⟨_, hc, rfl⟩ := (compile_ok hp).1 h3
    cases h4
    obtain ⟨cmds, h5, _, h6⟩ := uses_ok u hs hc
    exact ⟨rfl, m, cmds, hm, h5, h6⟩
  · rintro ⟨rfl, m, cmds, hm, hc, hsil⟩
    rw [bind_of_ok (getMeta_ok.2 ⟨rfl, hm⟩)]
    have := (uses_tells u hc (fun hx => by cases hx) (fun cmd hcm => silent_tells (hsil cmd hcm))).2 hsil rfl
    rw [bind_of_ok ((compile_ok hp (w' := w')).2 ⟨he, this, rfl⟩)]
    rfl

/-- C85: for `compile` that means that each file of a directory below that of the argument was
named to a run of protoc that ended with status 0. -/
theorem C85_compile_files (h : Host) (hp : Prints h) (t : Toolchain) (u : Uses h t) (args : List Str)
    (w w' : World) (hs : Undisturbed t w.disk) (hok : compileCmd h args false w = (w', .ok ())) :
    ∃ m, Finds h args m ∧ ∀ d ∈ m.protoSet.dirPathToFiles, m.protoSet.dirPath <+: d.1 →
      Accepted t {} w.disk m.protoSet d .check := by
  unfold compileCmd at hok
  obtain ⟨w1, m, h1, h2⟩ := bind_ok.1 hok
  obtain ⟨rfl, hm⟩ := getMeta_ok.1 h1
  obtain ⟨w2, sets, h3, h4⟩ := bind_ok.1 h2
  obtain ⟨_, hc, rfl⟩ := (compile_ok hp).1 h3
  exact ⟨m, hm, fun d hd hpre => C85_accepted h t u {} m _ hs ⟨_, hc⟩ d hd hpre .check (by simp [jobs, compilerOptions])⟩

/-- C85: `generate` that ends well had every plugin run for every directory, with status 0. Without
plugins the files were compiled. -/
theorem C85_generate (h : Host) (hp : Prints h) (t : Toolchain) (u : Uses h t) (args : List Str)
    (w w' : World) (hs : Undisturbed t w.disk) (hok : genCmd h args false w = (w', .ok ())) :
    ∃ m, Finds h args m ∧ ∀ d ∈ m.protoSet.dirPathToFiles, m.protoSet.dirPath <+: d.1 →
      (∀ p ∈ m.protoSet.config.gen.plugins,
        Accepted t { doGen := true } w.disk m.protoSet d (.plugin p)) ∧
      (m.protoSet.config.gen.plugins = [] →
        Accepted t { doGen := true } w.disk m.protoSet d .check) := by
  unfold genCmd at hok
  obtain ⟨w1, m, h1, h2⟩ := bind_ok.1 hok
  obtain ⟨rfl, hm⟩ := getMeta_ok.1 h1
  obtain ⟨w2, sets, h3, h4⟩ := bind_ok.1 h2
  obtain ⟨_, hc, rfl⟩ := (compile_ok hp).1 h3
  refine ⟨m, hm, fun d hd hpre => ⟨fun p hpl => ?_, fun hpl => ?_⟩⟩
  · refine C85_accepted h t u _ m _ hs ⟨_, hc⟩ d hd hpre _ ?_
    unfold jobs compilerOptions
    cases hg : m.protoSet.config.gen.plugins with
    | nil => rw [hg] at hpl; cases hpl
    | cons a l => rw [hg] at hpl; simpa using hpl
  · refine C85_accepted h t u _ m _ hs ⟨_, hc⟩ d hd hpre _ ?_
    rw [hpl]
    simp [jobs, compilerOptions]

/-- C85: if protoc objects to something and says what, `compile` prints the failures of all lines
of all runs, sorted, and ends with 255. -/
theorem C85_failures (h : Host) (hp : Prints h) (hc : CanPrint h) (t : Toolchain) (u : Uses h t)
    (args : List Str) (m : Meta) (hm : Finds h args m) (w : World) (cmds : List CmdMeta)
    (hcmds : CommandsOf t {} w.disk m.protoSet cmds)
    (ht : ∀ cmd ∈ cmds, Tells m.protoSet.config.compile.allowUnusedImports (t.protoc w.disk cmd))
    (hn : ∃ cmd ∈ cmds, ¬ Silent m.protoSet.config.compile.allowUnusedImports (t.protoc w.disk cmd)) :
    compileCmd h args false w =
      ({ w with out := w.out ++ printed h m (cmds.flatMap fun cmd => failuresOf cmd (t.protoc w.disk cmd)) },
        .error (.exit 255 [])) := by
  have hcomp := (uses_tells u hcmds (fun hx => by cases hx) ht).1 hn
  have hset := commandsOf_set hcmds
  have hne : (cmds.flatMap fun cmd => failuresOf cmd (t.protoc w.disk cmd)) ≠ [] := by
    obtain ⟨cmd, hcm, hx⟩ := hn
    intro e
    rw [List.flatMap_eq_nil_iff] at e
    have h1 := ht cmd hcm
    rw [← hset cmd hcm] at h1 hx
    exact hx ((failuresOf_nil h1).1 (e cmd hcm))
  generalize hfs : (cmds.flatMap fun cmd => failuresOf cmd (t.protoc w.disk cmd)) = fs at *
  have hperm := (C18_sorted fs).1
  have hpr : printed h m (Text.sortFailures fs) = printed h m fs := by
    unfold printed
    rw [C18_canonical _ _ hperm]
  unfold compileCmd
  rw [bind_of_ok (getMeta_ok.2 ⟨rfl, hm⟩)]
  have hdo : compile h false false false m w =
      ({ w with out := w.out ++ printed h m fs }, .error (.exit 255 [])) := by
    unfold compile
    simp only [Bool.false_eq_true, if_false]
    unfold doCompile
    simp only [Bool.false_eq_true, if_false]
    rw [hcomp]
    dsimp only
    rw [bind_of_ok (printFailures_ok hp hc m _ w), hpr]
    have : 0 < (Text.sortFailures fs).length := by
      rw [hperm.length_eq]; exact List.length_pos_iff.2 hne
    rw [if_pos this]
    rfl
  show Run.bind (compile h false false false m) _ w = _
  unfold Run.bind
  rw [hdo]

/-- C85: with `--dry-run`, `compile` and `generate` print exactly the command lines that they run
without it. -/
theorem C85_dry_run (h : Host) (hp : Prints h) (t : Toolchain) (u : Uses h t) (args : List Str) (m : Meta)
    (hm : Finds h args m) (w : World) (doGen : Bool) (cmds : List CmdMeta)
    (hcmds : CommandsOf t { doGen := doGen } w.disk m.protoSet cmds) :
    (if doGen then genCmd h args true else compileCmd h args true) w =
      ({ w with out := w.out ++ commandLines cmds }, .ok ()) := by
  obtain ⟨live, hcmds⟩ := hcmds
  have hpc : h.protocCommands { doGen := doGen } w.disk m.protoSet = .ok (cmds.map CmdMeta.string) := by
    rw [u.protocCommands]
    unfold Protoc.protocCommands
    rw [hcmds]
  have hdo : compile h doGen false true m w =
      ({ w with out := w.out ++ commandLines cmds }, .ok []) := by
    unfold compile
    simp only [if_true]
    have : doProtocCommands h { doGen := doGen, doFileDescriptorSet := false } m w =
        ({ w with out := w.out ++ commandLines cmds }, .ok ()) := by
      unfold doProtocCommands
      rw [hpc]
      dsimp only
      rw [printAll_ok' hp]
      · rw [List.flatMap_map]
        rfl
      · intro s hs
        obtain ⟨cmd, hcm, rfl⟩ := List.mem_map.1 hs
        have := commandsOf_args ⟨live, hcmds⟩ cmd hcm
        unfold CmdMeta.string
        cases ha : cmd.args with
        | nil => exact absurd ha this
        | cons a l => simp [join]
    rw [bind_of_ok this]
    rfl
  cases doGen with
  | true =>
    simp only [if_true]
    unfold genCmd
    rw [bind_of_ok (getMeta_ok.2 ⟨rfl, hm⟩), bind_of_ok hdo]
    rfl
  | false =>
    simp only [Bool.false_eq_true, if_false]
    unfold compileCmd
    rw [bind_of_ok (getMeta_ok.2 ⟨rfl, hm⟩), bind_of_ok hdo]
    rfl

/-! ## Examples -/

/-- The commands that compile with a toolchain are there for every toolchain. -/
theorem exists_uses (h : Host) (t : Toolchain) (hcpu : ∀ disk, 0 < (t.env disk).numCPU) :
    ∃ compile protocCommands, Uses { h with compile := compile, protocCommands := protocCommands } t := by
  have hex : ∀ (flags : CompileFlags) (disk : Disk) (ps : ProtoSet), ∃ ended live r,
      Protoc.Compiles (t.env disk) (compilerOptions flags) ps ended (t.live disk) live r ∧
      (∀ cmds, CommandsOf t flags disk ps cmds →
        ∀ i (hi : i < cmds.length), ended i = t.protoc disk cmds[i]) := by
    intro flags disk ps
    have hended : ∃ ended : Nat → Ended, ∀ cmds, CommandsOf t flags disk ps cmds →
        ∀ i (hi : i < cmds.length), ended i = t.protoc disk cmds[i] := by
      cases hm : getCmdMetas (t.env disk) (compilerOptions flags) ps (t.live disk) with
      | mk live r =>
        cases r with
        | error e =>
          refine ⟨fun _ => .notRun [], ?_⟩
          rintro cmds ⟨_, hx⟩
          rw [hm] at hx
          cases hx
        | ok cmds =>
          refine ⟨fun i => if hi : i < cmds.length then t.protoc disk cmds[i] else .notRun [], ?_⟩
          rintro cmds' ⟨_, hx⟩ i hi
          rw [hm] at hx
          cases hx
          simp [hi]
    obtain ⟨ended, he⟩ := hended
    obtain ⟨live, r, hr⟩ := C42_returns (t.env disk) (hcpu disk) (compilerOptions flags) ps ended (t.live disk)
    exact ⟨ended, live, r, hr, he⟩
  refine ⟨fun flags disk ps => summary (hex flags disk ps).choose_spec.choose_spec.choose,
    fun flags disk ps => (Protoc.protocCommands (t.env disk) (compilerOptions flags) ps (t.live disk)).2, ?_, ?_⟩
  · intro flags disk ps
    exact ⟨_, _, _, (hex flags disk ps).choose_spec.choose_spec.choose_spec.1,
      (hex flags disk ps).choose_spec.choose_spec.choose_spec.2, rfl⟩
  · intros; rfl

/-- protoc objects to one file. -/
def pickyToolchain : Toolchain where
  env _ := Protoc.Sample.env
  live _ := []
  protoc disk cmd :=
    if cmd.dirPath = s%"/w/b" ∧ disk s%"/w/b/three.proto" = some s%"x" then
      .exited (some s%"exit status 1") s%"three.proto:1:1: Expected top-level statement.\n"
    else .exited none []

/-- Its commands for the sample. -/
def pickyCmds : List CmdMeta :=
  match (getCmdMetas Protoc.Sample.env (compilerOptions {}) Protoc.Sample.protoSet []).2 with
  | .ok cmds => cmds
  | .error _ => []

/-- The working directory is that of the sample for the compiler. -/
def compileHost : Host :=
  { Exec.Sample.host with
    stat := fun p => if p = s%"." then .ok .dir else .error s%"no such file"
    getForDir := fun _ _ => .ok Protoc.Sample.protoSet }

/-- With the file protoc objects to, `compile` says so and ends with 255; without, it ends well. -/
example : ∃ h : Host, Uses h pickyToolchain ∧ (∀ w, Undisturbed pickyToolchain w) ∧
    (compileCmd h [] false { disk := fun _ => some s%"x" }).2 = .error (.exit 255 []) ∧
    (compileCmd h [] false { disk := fun _ => some s%"x" }).1.out =
      s%"b/three.proto:1:1:Expected top-level statement.\n" ∧
    (compileCmd h [] false { disk := fun _ => some s%"syntax" }).2 = .ok () := by
  obtain ⟨compile, protocCommands, u⟩ := exists_uses compileHost pickyToolchain (fun _ => Nat.zero_lt_two)
  have hp : Prints { compileHost with compile := compile, protocCommands := protocCommands } :=
    fun _ _ => rfl
  have hk : ErrorFormatKnown { compileHost with compile := compile, protocCommands := protocCommands } :=
    ⟨_, rfl⟩
  have hc : CanPrint { compileHost with compile := compile, protocCommands := protocCommands } :=
    ⟨hk, fun hx => by cases hx⟩
  have hm : Finds { compileHost with compile := compile, protocCommands := protocCommands } []
      { protoSet := Protoc.Sample.protoSet } :=
    ⟨s%".", .inr ⟨by decide, rfl⟩, .inl ⟨rfl, rfl, rfl⟩⟩
  have hu : ∀ w, Undisturbed pickyToolchain w := by
    intro w cmd
    unfold pickyToolchain
    dsimp only
    split <;> simp
  refine ⟨_, u, hu, ?_⟩
  have hcmds : ∀ disk, CommandsOf pickyToolchain {} disk Protoc.Sample.protoSet pickyCmds :=
    fun _ => ⟨[], rfl⟩
  have hbad : ¬ IgnoredLine true s%"three.proto:1:1: Expected top-level statement." := by
    intro hx
    exact hx.2.1 (by decide)
  have hline : linesOf s%"three.proto:1:1: Expected top-level statement.\n" =
      [s%"three.proto:1:1: Expected top-level statement."] := by decide +kernel
  have hfail := C85_failures _ hp hc pickyToolchain u [] _ hm { disk := fun _ => some s%"x" } pickyCmds
    (hcmds _) (by
      intro cmd _
      show Tells true _
      unfold pickyToolchain
      dsimp only
      split
      · exact fun _ => ⟨_, by rw [hline]; exact List.mem_singleton_self _, hbad⟩
      · exact fun hx => absurd rfl hx) (by
      refine ⟨pickyCmds[1]'(by decide +kernel), List.getElem_mem _, ?_⟩
      intro hx
      have hx : Silent true (.exited (some s%"exit status 1")
        s%"three.proto:1:1: Expected top-level statement.\n") := hx
      cases hx.1)
  rw [hfail]
  refine ⟨rfl, ?_, ?_⟩
  · show printed compileHost { protoSet := Protoc.Sample.protoSet } (pickyCmds.flatMap fun cmd =>
      failuresOf cmd (pickyToolchain.protoc (fun _ => some s%"x") cmd)) = _
    decide +kernel
  · have := (C85_compile _ hp hk pickyToolchain u [] { disk := fun _ => some s%"syntax" }
      { disk := fun _ => some s%"syntax" } (hu _)).2 ⟨rfl, _, pickyCmds, hm, hcmds _, ?_⟩
    · rw [this]
    · intro cmd _
      unfold pickyToolchain
      dsimp only
      rw [if_neg (by simp)]
      exact ⟨rfl, by
        have : linesOf [] = [] := by decide
        intro line hl
        rw [this] at hl
        cases hl⟩

end Verif.Props
