import Verif.Proof.History
import Verif.Props.CmdLine

/-!
# Histories of command lines (C109)
-/

namespace Verif.Props

open Verif Str Exec Cmd Spec

/-- C109: if a line changes what is at a path, it is one that may. -/
theorem C109_line (l : Line) (ho : l.Orderly) (w : World) (path : Str) (hpath : IsAbsPath path)
    (hc : (l.run w).1.disk path ≠ w.disk path) : l.MayChange w.disk path := by
  rcases line_disk l w with h | ⟨c, args, values, f, r, h1, h2, h3, h4⟩
  · exact absurd (congrFun h path) hc
  · refine ⟨c, args, values, f, r, h1, h2, h3, ?_⟩
    rw [h4] at hc
    have reads : OnlyReads c f → False := by
      intro hr
      have h5 := (C80_only_reads (s := l.system) l.usage l.devel (c := c) (args := args) (values := values)
        (fun f' hf' => by rw [h2] at hf'; injection hf' with hf'; rw [← hf']; exact hr) w).1
      have h6 : (l.run w).1.disk = w.disk := by unfold Line.run; rw [h1]; exact h5
      exact hc (by rw [← h4, h6])
    have confined : ∀ {P : Str → Prop}, Confined P (c.run l.system r args f) → P path := by
      intro P hP
      exact Classical.byContradiction fun hn => hc (hP w path hn)
    have found : ∀ {w w' : World} {m : Meta}, getMeta (l.system.hostOf r) args w = (w', .ok m) →
        Finds (l.system.hostOf r) args m := fun h => (getMeta_ok.1 h).2
    cases c with
    | compile => exact reads (.inl (by simp))
    | files => exact reads (.inl (by simp))
    | grpc => exact reads (.inl (by simp))
    | inspectPackages => exact reads (.inl (by simp))
    | inspectPackageDeps => exact reads (.inl (by simp))
    | inspectPackageImporters => exact reads (.inl (by simp))
    | lint => exact reads (.inl (by simp))
    | version => exact reads (.inl (by simp))
    | format =>
      refine ⟨?_, confined (P := FormatsPath (l.system.hostOf r) args) ?_⟩
      · cases ho : f.overwrite with
        | true => rfl
        | false => exact (reads (.inr (.inl ⟨rfl, ho⟩))).elim
      · unfold Command.run formatCmd
        dsimp only
        split
        · exact confined_of_quiet (quiet_exit _)
        · exact confined_bind (confined_of_quiet (quiet_getMeta _ _)) fun _ _ m hm =>
            confined_bind (confined_of_quiet (quiet_compile _ _ _ _)) fun _ _ _ _ =>
              confined_format fun g hg => ⟨m, g, found hm, hg, rfl⟩
    | generate =>
      refine ⟨?_, confined (P := GeneratesPath (l.system.hostOf r) args) ?_⟩
      · cases ho : f.dryRun with
        | false => rfl
        | true => exact (reads (.inr (.inr (.inl ⟨rfl, ho⟩)))).elim
      · exact confined_bind (confined_of_quiet (quiet_getMeta _ _)) fun _ _ m hm =>
          confined_bind (confined_compile fun _ _ disk p hp => ⟨m, disk, found hm, hp⟩) fun _ _ _ _ =>
            confined_of_quiet (quiet_pure _)
    | all =>
      refine confined (P := fun p => (f.disableFormat = false ∧ FormatsPath (l.system.hostOf r) args p) ∨
        GeneratesPath (l.system.hostOf r) args p) ?_
      refine confined_bind (confined_of_quiet (quiet_getMeta _ _)) fun _ _ m hm =>
        confined_bind (confined_of_quiet (quiet_compile _ _ _ _)) fun _ _ _ _ =>
        confined_bind ?_ fun _ _ _ _ =>
        confined_bind (confined_compile fun _ _ disk p hp => .inr ⟨m, disk, found hm, hp⟩) fun _ _ _ _ => ?_
      · cases hd : f.disableFormat with
        | true => exact confined_of_quiet (quiet_pure _)
        | false => exact confined_format fun g hg => .inl ⟨rfl, m, g, found hm, hg, rfl⟩
      · split
        · exact confined_of_quiet (quiet_lint _ _ _)
        · exact confined_of_quiet (quiet_pure _)
    | create =>
      refine ⟨Classical.byContradiction fun hn => ?_, ?_⟩
      · refine hc ((C39_only (Cmd.createHandler l.system r f.pkg) (l.system.hostOf r) w args).2.2 path
          fun p hp he => hn ⟨p, hp, he⟩)
      · rcases hd : w.disk path with _ | data
        · exact .inl rfl
        · right
          refine Classical.byContradiction fun hn => hc ?_
          rw [hd]
          exact C39_kept (Cmd.createHandler l.system r f.pkg) (l.system.hostOf r) w args path data hd
            fun e => hn (by rw [e])
    | configInit =>
      have hp : path = configPath (l.system.hostOf r) args :=
        Classical.byContradiction fun hn => hc (C71_only _ _ _ _ _ w path hn)
      refine ⟨hp, ?_⟩
      rcases hd : w.disk path with _ | data
      · rfl
      · obtain ⟨e, he⟩ := C71_kept (l.system.hostOf r) (l.system.tools r) args f.uncomment f.document w data
          (by rw [← hp]; exact hd)
        refine absurd ?_ hc
        show (initCmd _ _ _ _ _ w).1.disk path = _
        rw [he]
    | descriptorSet => exact confined confined_descriptorSetCmd
    | breakDescriptorSet =>
      have := confined (P := fun p => f.outputPath ≠ [] ∧ p = f.outputPath) ?_
      · exact this
      · unfold Command.run breakDescriptorSetCmd
        dsimp only
        split
        · exact confined_of_quiet (quiet_exit _)
        · intro v p hp
          refine confined_descriptorSetCmd v p ?_
          rintro (⟨h1, _, h3⟩ | ⟨_, h2, _⟩)
          · exact hp ⟨h1, h3⟩
          · cases h2
    | breakCheck => exact confined (confined_breakCheckCmd (ho.tempDir r) (ho.clone r) (ho.removal r))
    | cacheUpdate => exact cache_disk hc
    | cacheDelete =>
      obtain ⟨d, hd, hne⟩ := cache_disk (args := []) (g := Download.delete (l.system.downloadHost r)) hc
      have habs : IsAbsPath (l.system.downloadHost r).wd := by
        obtain ⟨_, _, _, _, _, _, _, _, hw, _⟩ := C78_settings h3
        exact ho.wd _ hw
      by_cases hroot : ∃ cs, CacheRoot (l.system.downloadHost r) d cs
      · obtain ⟨cs, hroot⟩ := hroot
        obtain ⟨ps, hps, rfl⟩ := hpath
        refine ⟨d, cs, hd, hroot, Classical.byContradiction fun hn => hne ?_⟩
        exact (C76_exactly w.disk habs hroot hps).2.2 hn
      · exact absurd (congrFun (C76_no_root w.disk habs hroot).1 path) hne

/-- C109: **after any history, a path at which something has changed is one that a line of the history may
change**, with the files as they were when that line was run. -/
theorem C109_history (ls : List Line) (ho : ∀ l ∈ ls, l.Orderly) (w : World) (path : Str)
    (hpath : IsAbsPath path) (hc : (history ls w).disk path ≠ w.disk path) :
    ∃ before l after, ls = before ++ l :: after ∧ l.MayChange (history before w).disk path := by
  induction ls generalizing w with
  | nil => exact absurd rfl hc
  | cons l ls ih =>
    by_cases h1 : (l.run w).1.disk path = w.disk path
    · obtain ⟨before, l', after, h2, h3⟩ := ih (fun x hx => ho x (List.mem_cons_of_mem _ hx)) (l.run w).1
        (by rw [h1]; exact hc)
      exact ⟨l :: before, l', after, by rw [h2]; rfl, h3⟩
    · exact ⟨[], l, ls, rfl, C109_line l (ho l (List.mem_cons_self ..)) w path hpath h1⟩

/-- C109: files with content keep it through every history of lines that look at the files, create files
or make a configuration file. -/
theorem C109_content (ls : List Line) (hk : ∀ l ∈ ls, l.Keeping) (w : World) (path data : Str)
    (hd : w.disk path = some data) (hn : data ≠ []) : (history ls w).disk path = some data := by
  induction ls generalizing w with
  | nil => exact hd
  | cons l ls ih =>
    refine ih (fun x hx => hk x (List.mem_cons_of_mem _ hx)) (l.run w).1 ?_
    rcases line_disk l w with h | ⟨c, args, values, f, r, h1, h2, h3, h4⟩
    · rw [h]; exact hd
    · rcases hk l (List.mem_cons_self ..) c args values f h1 h2 with hr | rfl | rfl
      · have h5 := (C80_only_reads (s := l.system) l.usage l.devel (c := c) (args := args) (values := values)
          (fun f' hf' => by rw [h2] at hf'; injection hf' with hf'; rw [← hf']; exact hr) w).1
        have h6 : (l.run w).1.disk = w.disk := by unfold Line.run; rw [h1]; exact h5
        rw [h6]; exact hd
      · rw [h4]
        exact C39_kept (Cmd.createHandler l.system r f.pkg) (l.system.hostOf r) w args path data hd hn
      · rw [h4]
        by_cases hp : path = configPath (l.system.hostOf r) args
        · obtain ⟨e, he⟩ := C71_kept (l.system.hostOf r) (l.system.tools r) args f.uncomment f.document w data
            (by rw [← hp]; exact hd)
          show (initCmd _ _ _ _ _ w).1.disk path = _
          rw [he]
          exact hd
        · exact (C71_only _ _ _ _ _ w path hp).trans hd

/-- C109: what a line does, prints and ends with depends on the files alone, not on what was printed and
written before. -/
theorem C109_alone (l : Line) (hp : l.Printing) (w : World) :
    (l.run w).1.disk = l.after w.disk ∧ (l.run w).1.out = w.out ++ l.text w.disk ∧
      (l.run w).2 = l.exit w.disk := by
  have h := line_framed hp w.out w.writes { disk := w.disk }
  have hw : shift w.out w.writes { disk := w.disk } = w := by simp [shift]
  rw [hw] at h
  rw [h]
  exact ⟨rfl, rfl, rfl⟩

/-- A line that only looks at the files leaves them as they are. -/
theorem reading_after {l : Line} (hr : l.Reading) (w : World) : (l.run w).1.disk = w.disk := by
  rcases line_disk l w with h | ⟨c, args, values, f, r, h1, h2, _, _⟩
  · exact h
  · have h5 := (C80_only_reads (s := l.system) l.usage l.devel (c := c) (args := args) (values := values)
      (fun f' hf' => hr c args values f' h1 hf') w).1
    unfold Line.run; rw [h1]; exact h5

/-- C109: **a history of lines that only look at the files changes no file and prints what each of the
lines prints alone**, one after the other. So the order of the lines changes nothing but the order of
what they print. -/
theorem C109_reading (ls : List Line) (hr : ∀ l ∈ ls, l.Reading) (hp : ∀ l ∈ ls, l.Printing) (w : World) :
    (history ls w).disk = w.disk ∧ (history ls w).out = w.out ++ ls.flatMap fun l => l.text w.disk := by
  induction ls generalizing w with
  | nil => exact ⟨rfl, (List.append_nil _).symm⟩
  | cons l ls ih =>
    obtain ⟨h1, h2⟩ := ih (fun x hx => hr x (List.mem_cons_of_mem _ hx))
      (fun x hx => hp x (List.mem_cons_of_mem _ hx)) (l.run w).1
    have hd := reading_after (hr l (List.mem_cons_self ..)) w
    refine ⟨h1.trans hd, ?_⟩
    show (history ls (l.run w).1).out = _
    rw [h2, hd, (C109_alone l (hp l (List.mem_cons_self ..)) w).2.1, List.flatMap_cons, List.append_assoc]

/-- C109: a line that only looks at the files does the same every time, and every other line does the same
after it as before. -/
theorem C109_again (l l' : Line) (hr : l.Reading) (hp' : l'.Printing) (w : World) :
    (l'.run (l.run w).1).1.disk = l'.after w.disk ∧ (l'.run (l.run w).1).2 = l'.exit w.disk ∧
      (l'.run (l.run w).1).1.out = (l.run w).1.out ++ l'.text w.disk := by
  obtain ⟨h1, h2, h3⟩ := C109_alone l' hp' (l.run w).1
  rw [reading_after hr w] at h1 h2 h3
  exact ⟨h1, h3, h2⟩

/-! ## The theorems are about something -/

namespace HistoryExample

open CmdExample Exec.Sample

/-- A line on the sample system. -/
def line (c : Command) (args : List Str) (values : List (Str × Value)) : Line where
  system := system []
  usage := usage
  parsed := .line c args values

/-- Lines that make files and look at them. -/
def makers : List Line :=
  [line .create [s%"a/new.proto"] [(s%"package", .str s%"x.y")], line .lint [s%"a"] [], line .configInit [s%"a"] [],
    line .create [s%"a/new.proto"] [], line .format [s%"a"] []]

/-- All five lines do something or complain, and the files there keep their content. -/
example : (history makers world).disk s%"/w/a/two.proto" = some s%"syntax=\"proto3\";" ∧
    (world.disk s%"/w/a/new.proto").isNone ∧ ((history makers world).disk s%"/w/a/new.proto").isSome := by
  decide +kernel
example : ∀ l ∈ makers, l.Keeping := by
  intro l hl c args values f hp hf
  simp only [makers, List.mem_cons, List.not_mem_nil, or_false] at hl
  rcases hl with rfl | rfl | rfl | rfl | rfl <;> cases hp
  · exact .inr (.inl rfl)
  · exact .inl (.inl (by simp))
  · exact .inr (.inr rfl)
  · exact .inr (.inl rfl)
  · cases hf
    exact .inl (.inr (.inl ⟨rfl, rfl⟩))
example : ∀ l ∈ makers, l.Orderly := by
  intro l hl
  have h : l.system = system [] := by
    simp only [makers, List.mem_cons, List.not_mem_nil, or_false] at hl
    rcases hl with rfl | rfl | rfl | rfl | rfl <;> rfl
  refine ⟨?_, ?_, ?_, ?_⟩ <;> rw [h]
  · rintro d hd
    cases hd
    exact sampleHost_wd
  · exact fun _ => tools_ok.isAbs
  · exact fun _ => tools_ok.clone
  · exact fun _ => tools_ok.kept
/-- Formatting does change a file, which is one the line may change. -/
example : (history (makers ++ [line .format [s%"a"] [(s%"overwrite", .bool true)]]) world).disk s%"/w/a/two.proto" ≠
    world.disk s%"/w/a/two.proto" := by decide +kernel
example : (line .format [s%"a"] []).Printing := fun _ _ _ => rfl
example : (line .format [s%"a"] []).text world.disk ≠ [] := by decide +kernel
example : (line .format [s%"a"] []).exit world.disk = .code 255 := by decide +kernel

end HistoryExample

end Verif.Props
