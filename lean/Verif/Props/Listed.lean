import Verif.Props.Scope
import Verif.Props.ExecCompile
import Verif.Props.OneByOne
import Verif.Spec.Listed

/-!
# C119: `files` lists what the other commands are about
-/

namespace Verif.Props

open Verif Str Exec Spec File

/-- The name a file is shown under leads to it. -/
theorem shown_leads {h : Exec.Host} {c : File.Provider} {o : Order} (hd : Discovers h c o) {args : List Str} {m : Meta}
    (hm : Finds h args m) (hh : RunsHere h c m.protoSet) {f : ProtoFile} (hf : Found m f) :
    f.displayPath ≠ [] ∧ fileAt h f.displayPath = f.path := by
  obtain ⟨dir, files, h1, h2⟩ := hf
  have hmem : f ∈ allFiles m.protoSet := List.mem_flatMap.2 ⟨_, h1, h2⟩
  obtain ⟨d, hg, hne, _⟩ := hd.get hm
  obtain ⟨k1, k2, _⟩ := discovered hd.wd hd.workDirPath hne hd.tree hd.excludes hg hh.workDirPath hh.files f hmem
  obtain ⟨_, l2, _⟩ := displayPathOf_leads hd.wd k1 (hh.files f hmem)
  rw [← k2] at l2
  refine ⟨fun e => ?_, by unfold fileAt; rw [hh.wd]; exact l2⟩
  rw [e] at l2
  obtain ⟨cs, _, hp⟩ := k1
  rw [hp] at l2
  cases cs <;> exact absurd l2.symm (by simp [absClean, absPath])

/-- The lines of `files`. -/
theorem listed_lines {h : Exec.Host} {c : File.Provider} {o : Order} (hd : Discovers h c o) (hp : Prints h)
    {args : List Str} {m : Meta} (hm : Finds h args m) (hh : RunsHere h c m.protoSet) (w : World) :
    ∃ lines, FilesPrints h o args w lines ∧
      ∀ s, s ∈ lines ↔ ∃ f, Concerns h { m with singleFilename := [] } f ∧ f.displayPath = s := by
  obtain ⟨lines, h1, _, h3, _⟩ := C63_files h hp o args m hm (fun f hf => (shown_leads hd hm hh hf).1) w
  exact ⟨lines, h1, h3⟩

/-- C119: **`files` lists what the other commands are about.** A file that `format` changes is one that `files` lists for
the same argument; `format --overwrite` of a directory that ends well has formatted every listed file; and `lint` names
listed files only. -/
theorem C119_listed (h : Exec.Host) (c : File.Provider) (o : Order) (hd : Discovers h c o) (hparse : ParserOK h)
    (hp : Prints h) (hc : CanPrint h) (env : Lint.Env) (srt : SortSlice) (a : Str) (m : Meta) (hm : Finds h [a] m)
    (hh : RunsHere h c m.protoSet) (w : World) :
    ∃ lines, FilesPrints h o [a] w lines ∧
      (∀ flags path, (formatCmd h o srt [a] flags w).1.disk path ≠ w.disk path → ∃ s ∈ lines, fileAt h s = path) ∧
      (∀ flags, flags.overwrite = true → h.stat a = .ok .dir → (formatCmd h o srt [a] flags w).2 = .ok () →
        ∀ s ∈ lines, ∃ content text, w.disk (fileAt h s) = some content ∧
          Formats h srt flags.fix m (fileAt h s) content text ∧
          (formatCmd h o srt [a] flags w).1.disk (fileAt h s) = some text) ∧
      ∀ fs, Compiles h {} m w.disk → Lint.run env (lintHost h w.disk) m.protoSet false = some (.ok fs) →
        ∃ shown : List Text.Failure, (lintCmd h env srt [a] {} w).1 = { w with out := w.out ++ shown.flatMap (lineOf h) } ∧
          ∀ f ∈ shown, f.filename ∈ lines := by
  obtain ⟨lines, h1, h2⟩ := listed_lines (o := o) hd hp hm hh w
  have hdist := C38_distinct h c o hd [a] m hm
  refine ⟨lines, h1, fun flags path hne => ?_, fun flags hf hdir hok s hs => ?_, fun fs hcomp hl => ?_⟩
  · obtain ⟨_, f, _, _, ⟨hcon, _⟩, hpath, _⟩ := C38_changed h o srt [a] flags m hm hdist w path hne
    obtain ⟨dir, files, k1, k2, k3⟩ := hcon
    exact ⟨f.displayPath, (h2 _).2 ⟨f, ⟨⟨dir, files, k1, k2, k3⟩, .inl rfl⟩, rfl⟩,
      (shown_leads hd hm hh ⟨dir, files, k1, k3⟩).2.trans hpath⟩
  · obtain ⟨f, ⟨⟨dir, files, k1, k2, k3⟩, _⟩, rfl⟩ := (h2 s).1 hs
    have hsingle : m.singleFilename = [] := by
      obtain ⟨y, hy, hfind⟩ := hm
      have : y = a := by
        rcases hy with hy | ⟨hy, _⟩
        · cases hy; rfl
        · simp at hy
      subst this
      rcases hfind with ⟨_, _, h3⟩ | ⟨h1, _⟩
      · exact h3
      · rw [hdir] at h1
        cases h1
    rw [(shown_leads hd hm hh ⟨dir, files, k1, k3⟩).2]
    exact C38_overwritten h hp o srt [a] flags hf m hm hdist w hok f ⟨⟨dir, files, k1, k2, k3⟩, .inl hsingle⟩
  · obtain ⟨da, ha⟩ : ∃ da, StandsFor h a da := by
      obtain ⟨y, hy, hfind⟩ := hm
      have : y = a := by
        rcases hy with hy | ⟨hy, _⟩
        · cases hy; rfl
        · simp at hy
      subst this
      rcases hfind with ⟨h1, _⟩ | ⟨h1, _⟩
      · exact ⟨_, .inl ⟨h1, rfl⟩⟩
      · exact ⟨_, .inr ⟨h1, rfl⟩⟩
    obtain ⟨shown, _, k1, _, k2, _⟩ := C92_lint h c o hd hparse hp hc env srt a a m m hm hm da da ha ha (.inl rfl) hh w w
      hcomp hcomp fs fs hl hl
    refine ⟨shown, k1, fun f hf => ?_⟩
    obtain ⟨_, g, ⟨hg, _⟩, e⟩ := k2 f hf
    exact (h2 _).2 ⟨g, ⟨hg, .inl rfl⟩, e.symm⟩

/-- C119: **protoc compiles what `files` lists**: a `compile` that ends well has run protoc on listed files only, and every
listed file was among those of a run. -/
theorem C119_compiled (h : Exec.Host) (c : File.Provider) (o : Order) (hd : Discovers h c o) (hp : Prints h)
    (he : ErrorFormatKnown h) (t : Toolchain) (u : Uses h t) (args : List Str) (m : Meta) (hm : Finds h args m)
    (hh : RunsHere h c m.protoSet) (w : World) (hs : Undisturbed t w.disk)
    (hok : (compileCmd h args false w).2 = .ok ()) :
    ∃ lines cmds, FilesPrints h o args w lines ∧ CommandsOf t {} w.disk m.protoSet cmds ∧
      (∀ cmd ∈ cmds, ∃ part, RunsOn h cmd part ∧ (∀ s ∈ part, s ∈ lines) ∧
        Silent m.protoSet.config.compile.allowUnusedImports (t.protoc w.disk cmd)) ∧
      ∀ s ∈ lines, ∃ cmd ∈ cmds, ∃ part, RunsOn h cmd part ∧ s ∈ part := by
  obtain ⟨lines, h1, h2⟩ := listed_lines (o := o) hd hp hm hh w
  obtain ⟨_, m', cmds, hm', hcmds, hsil⟩ := (C85_compile h hp he t u args w _ hs).1 (Prod.ext rfl hok)
  obtain rfl : m' = m := hm'.unique hm
  have hjobs : jobs (compilerOptions {}) m'.protoSet.config.gen.plugins = [.check] := by simp [jobs, compilerOptions]
  have runs : ∀ {d : Str × List ProtoFile} {cmd : Protoc.CmdMeta}, d ∈ m'.protoSet.dirPathToFiles →
      CommandFor (t.env w.disk) (compilerOptions {}) m'.protoSet d .check cmd →
      RunsOn h cmd (d.2.map fun f => f.displayPath) := by
    intro d cmd hdm hcmd
    obtain ⟨_, includes, out, _, _, ⟨_, hout⟩, hargs⟩ := hcmd.args
    refine ⟨includes, out, hout, ?_⟩
    rw [hargs, List.map_map]
    congr 1
    exact List.map_congr_left fun f hf => ((shown_leads hd hm hh ⟨d.1, d.2, hdm, hf⟩).2).symm
  refine ⟨lines, cmds, h1, hcmds, fun cmd hcmd => ?_, fun s hs => ?_⟩
  · obtain ⟨live, hg⟩ := hcmds
    obtain ⟨dirs, hperm, hpw⟩ := C73_commands hg
    obtain ⟨⟨d, j⟩, hx, hfor⟩ := pointwise_right hpw cmd hcmd
    rw [hjobs] at hx
    obtain ⟨d', hd', hx⟩ := List.mem_flatMap.1 hx
    simp only [List.map_cons, List.map_nil, List.mem_singleton, Prod.mk.injEq] at hx
    obtain ⟨rfl, rfl⟩ := hx
    obtain ⟨k1, k2⟩ := List.mem_filter.1 (hperm.mem_iff.1 hd')
    refine ⟨_, runs k1 hfor, fun s hs => ?_, hsil cmd hcmd⟩
    obtain ⟨f, hf, rfl⟩ := List.mem_map.1 hs
    exact (h2 _).2 ⟨f, ⟨⟨d.1, d.2, k1, List.isPrefixOf_iff_prefix.1 k2, hf⟩, .inl rfl⟩, rfl⟩
  · obtain ⟨f, ⟨⟨dir, files, k1, k2, k3⟩, _⟩, rfl⟩ := (h2 s).1 hs
    obtain ⟨cmd, hcmd, hfor⟩ := commandsOf_dir hcmds k1 k2 (j := .check) (by rw [hjobs]; exact List.mem_singleton.2 rfl)
    exact ⟨cmd, hcmd, _, runs k1 hfor, List.mem_map.2 ⟨f, k3, rfl⟩⟩

/-! ## The hypotheses can be met -/

theorem one_runsHere : RunsHere oneHost besideProvider oneMeta.protoSet := by
  refine ⟨rfl, by decide, ?_⟩
  unfold allFiles
  rw [one_files]
  simp only [← Exec.Sample.isWithin_iff]
  decide

theorem one_finds : Finds oneHost [s%".."] oneMeta := ⟨_, .inl rfl, .inl ⟨rfl, rfl, rfl⟩⟩

theorem one_parserOK : ParserOK oneHost := by
  refine ⟨?_, ?_⟩
  · intro filename data elements h config
    cases h
    constructor <;> intro n hn <;> cases List.mem_singleton.1 hn
    · rfl
    · exact ⟨rfl, fun _ h => nomatch h⟩
  · intro filename data elements h ρ
    cases h
    rfl

/-- `files ..` lists three files, one of them above the working directory. `format --overwrite ..` changes the file of
each line, and lint complains about one of them. -/
example : (filesCmd oneHost Order.id [s%".."] oneWorld).1.out = s%"../b.proto\nx.proto\nz.proto\n" ∧
    Discovers oneHost besideProvider Order.id ∧ Finds oneHost [s%".."] oneMeta ∧
    RunsHere oneHost besideProvider oneMeta.protoSet ∧ ParserOK oneHost ∧ CanPrint oneHost ∧
    (formatCmd oneHost Order.id .stable [s%".."] { overwrite := true } oneWorld).2 = .ok () ∧
    (∀ line ∈ [s%"../b.proto", s%"x.proto", s%"z.proto"],
      (formatCmd oneHost Order.id .stable [s%".."] { overwrite := true } oneWorld).1.disk (fileAt oneHost line) ≠
        oneWorld.disk (fileAt oneHost line)) ∧
    (lintCmd oneHost sampleEnv .stable [s%".."] {} oneWorld).1.out ≠ [] :=
  ⟨by decide +kernel, one_discovers, one_finds, one_runsHere, one_parserOK,
    ⟨⟨_, rfl⟩, fun h => nomatch h⟩, by decide +kernel, by decide +kernel, by decide +kernel⟩

/-- The commands for `..` -/
def oneCmds : List Protoc.CmdMeta :=
  match (Protoc.getCmdMetas Protoc.Sample.env (compilerOptions {}) oneMeta.protoSet []).2 with
  | .ok cmds => cmds
  | .error _ => []

/-- `compile ..` ends well: there are two runs, one on two of the listed files and one on the third. -/
example : ∃ h : Exec.Host, Uses h pickyToolchain ∧ (compileCmd h [s%".."] false oneWorld).2 = .ok () ∧
    ∃ lines cmds, FilesPrints h Order.id [s%".."] oneWorld lines ∧
      CommandsOf pickyToolchain {} oneWorld.disk oneMeta.protoSet cmds ∧
      ∀ s ∈ lines, ∃ cmd ∈ cmds, ∃ part, RunsOn h cmd part ∧ s ∈ part := by
  obtain ⟨compile, protocCommands, u⟩ := exists_uses oneHost pickyToolchain (fun _ => Nat.zero_lt_two)
  have hd : Discovers { oneHost with compile := compile, protocCommands := protocCommands } besideProvider Order.id :=
    ⟨one_discovers.getForDir, one_discovers.wd, one_discovers.workDirPath, one_discovers.stat, one_discovers.tree,
      one_discovers.excludes⟩
  have hm : Finds { oneHost with compile := compile, protocCommands := protocCommands } [s%".."] oneMeta :=
    one_finds
  have hh : RunsHere { oneHost with compile := compile, protocCommands := protocCommands } besideProvider
    oneMeta.protoSet := ⟨one_runsHere.wd, one_runsHere.workDirPath, one_runsHere.files⟩
  have hu : ∀ w, Undisturbed pickyToolchain w := by
    intro w cmd
    unfold pickyToolchain
    dsimp only
    split <;> simp
  have hcmds : CommandsOf pickyToolchain {} oneWorld.disk oneMeta.protoSet oneCmds := ⟨[], rfl⟩
  have hok := (C85_compile _ (fun _ _ => rfl) ⟨_, rfl⟩ pickyToolchain u [s%".."] oneWorld oneWorld (hu _)).2
    ⟨rfl, _, oneCmds, hm, hcmds, fun cmd _ => by
      unfold pickyToolchain
      dsimp only
      rw [if_neg (by simp [oneWorld])]
      exact ⟨rfl, by
        have : linesOf [] = [] := by decide
        intro line hl
        rw [this] at hl
        cases hl⟩⟩
  obtain ⟨lines, cmds, h1, h2, _, h3⟩ := C119_compiled _ besideProvider Order.id hd (fun _ _ => rfl) ⟨_, rfl⟩ pickyToolchain u
    [s%".."] oneMeta hm hh oneWorld (hu _) (by rw [hok])
  exact ⟨_, u, by rw [hok], lines, cmds, h1, h2, h3⟩

example : oneCmds.length = 2 := by decide +kernel

end Verif.Props
