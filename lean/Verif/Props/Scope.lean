import Verif.Proof.Scope
import Verif.Props.ExecNames
import Verif.Props.Exec

/-!
# C92: what lint says about a file depends on its directory and its configuration only

Not on which other directories there are, and not on whether `lint` was given the file, its
directory, or a directory above it.
-/

namespace Verif.Props

open Verif Str Spec Exec Path Settings File

/-! ## Runs -/

/-- C92: whatever a run says is about one of its files and under a rule that the configuration
asks for. -/
theorem C92_about (env : Lint.Env) (host : Lint.Host) (ps : ProtoSet) (absolutePaths : Bool)
    (hs : Sound host ps absolutePaths) (fs : List Text.Failure)
    (h : Lint.run env host ps absolutePaths = some (.ok fs)) (f : Text.Failure) (hf : f ∈ fs) :
    AsksRule ps.config.lint f.lintID ∧ ∃ g ∈ filesOf ps, f.filename = nameIn absolutePaths g :=
  Lint.run_about hs h f hf

/-- C92: two runs under the same configuration that have a directory in common, with the same
files and contents, say the same about its files. Anything else may differ: other directories,
what is in them, and the directory that was asked for. -/
theorem C92_run (env : Lint.Env) (host host' : Lint.Host) (ps ps' : ProtoSet) (absolutePaths : Bool)
    (hs : Sound host ps absolutePaths) (hs' : Sound host' ps' absolutePaths)
    (hown : OwnNames ps absolutePaths) (hown' : OwnNames ps' absolutePaths)
    (hconfig : ps'.config = ps.config) (habs : host'.abs = host.abs)
    (dir : Str) (files : List ProtoFile)
    (hmem : (dir, files) ∈ ps.dirPathToFiles) (hmem' : (dir, files) ∈ ps'.dirPathToFiles)
    (hin : ps.dirPath <+: dir) (hin' : ps'.dirPath <+: dir)
    (hparse : ∀ g ∈ files, host'.parse g.path (nameIn absolutePaths g) =
      host.parse g.path (nameIn absolutePaths g))
    (fs fs' : List Text.Failure) (h : Lint.run env host ps absolutePaths = some (.ok fs))
    (h' : Lint.run env host' ps' absolutePaths = some (.ok fs')) (g : ProtoFile) (hg : g ∈ files) :
    about (nameIn absolutePaths g) fs' = about (nameIn absolutePaths g) fs := by
  obtain ⟨ls, hl, he⟩ := Lint.run_about_eq hs hown h hmem hin
  obtain ⟨ls', hl', he'⟩ := Lint.run_about_eq hs' hown' h' hmem' hin'
  rw [hconfig, hl] at hl'
  cases hl'
  rw [he g hg, he' g hg, Lint.saysOf_host habs hconfig hparse]

/-- C92: what the rules other than those that compare the files of a directory say about a file
depends on that file only, whatever else is in its directory. -/
theorem C92_alone (env : Lint.Env) (host host' : Lint.Host) (ps ps' : ProtoSet) (absolutePaths : Bool)
    (hs : Sound host ps absolutePaths) (hs' : Sound host' ps' absolutePaths)
    (hown : OwnNames ps absolutePaths) (hown' : OwnNames ps' absolutePaths)
    (hconfig : ps'.config = ps.config) (habs : host'.abs = host.abs)
    (dir : Str) (files files' : List ProtoFile)
    (hmem : (dir, files) ∈ ps.dirPathToFiles) (hmem' : (dir, files') ∈ ps'.dirPathToFiles)
    (hin : ps.dirPath <+: dir) (hin' : ps'.dirPath <+: dir)
    (g : ProtoFile) (hg : g ∈ files) (hg' : g ∈ files')
    (hparse : host'.parse g.path (nameIn absolutePaths g) =
      host.parse g.path (nameIn absolutePaths g))
    (fs fs' : List Text.Failure) (h : Lint.run env host ps absolutePaths = some (.ok fs))
    (h' : Lint.run env host' ps' absolutePaths = some (.ok fs')) :
    (about (nameIn absolutePaths g) fs').filter (fun f => decide (f.lintID ∉ directoryRules)) =
      (about (nameIn absolutePaths g) fs).filter (fun f => decide (f.lintID ∉ directoryRules)) := by
  obtain ⟨ls, hl, he⟩ := Lint.run_alone_eq hs hown h hmem hin
  obtain ⟨ls', hl', he'⟩ := Lint.run_alone_eq hs' hown' h' hmem' hin'
  rw [hconfig, hl] at hl'
  cases hl'
  rw [he g hg, he' g hg']
  unfold Lint.saysAlone
  rw [Lint.saysOf_host habs hconfig fun x hx => by rw [List.mem_singleton.1 hx]; exact hparse]

/-- C92: if a run for a directory succeeds, so does the run for any directory below it. -/
theorem C92_narrower (env : Lint.Env) (host : Lint.Host) (ps : ProtoSet) (absolutePaths : Bool)
    (hs : Sound host ps absolutePaths) (dir : Str) (hdir : ps.dirPath <+: dir)
    (fs : List Text.Failure) (h : Lint.run env host ps absolutePaths = some (.ok fs)) :
    ∃ fs', Lint.run env host { ps with dirPath := dir } absolutePaths = some (.ok fs') := by
  obtain ⟨ls, hl, hok, rfl⟩ := (Lint.run_dirs_iff hs).1 h
  have hs' : Sound host { ps with dirPath := dir } absolutePaths := ⟨hs.parse, hs.files⟩
  refine ⟨_, (Lint.run_dirs_iff hs').2 ⟨ls, hl, fun p hp => ?_, rfl⟩⟩
  obtain ⟨h1, h2⟩ := List.mem_filter.1 hp
  have := hok p (List.mem_filter.2 ⟨h1, List.isPrefixOf_iff_prefix.2
    (hdir.trans (List.isPrefixOf_iff_prefix.1 h2))⟩)
  obtain ⟨e1, e2⟩ := Lint.parsedOf_config (host := host) (ps := ps) (ps' := { ps with dirPath := dir })
    (abs := absolutePaths) rfl p.2
  refine ⟨by rw [e1, e2]; exact this.1, fun l hlm => ?_⟩
  dsimp only at e2 ⊢
  rw [e2]
  exact this.2 l hlm

/-! ## Commands -/

/-- The arguments stand for directories governed by the same configuration, so the commands find
the same files. -/
theorem same_files {h : Exec.Host} {c : File.Provider} {o : Order} (hd : Discovers h c o)
    (hwd : h.wd = c.wd) {a b : Str} {m m' : Meta} (hm : Finds h [a] m) (hm' : Finds h [b] m') {da db : Str}
    (ha : StandsFor h a da) (hb : StandsFor h b db) (hsame : SameConfiguration c da db) :
    m'.protoSet = { m.protoSet with dirPath := db } ∧ m.protoSet.dirPath = da := by
  have find : ∀ {x : Str} {m : Meta} {dx : Str}, Finds h [x] m → StandsFor h x dx →
      ∃ d, d ≠ [] ∧ getForDirOf c o h.workDirPath d = .ok m.protoSet ∧ dx = absClean c.wd d := by
    intro x m dx hf hs
    obtain ⟨y, hy, hf⟩ := hf
    have : y = x := by
      rcases hy with hy | ⟨hy, _⟩
      · cases hy; rfl
      · simp at hy
    subst this
    rw [hd.getForDir] at hf
    rw [← hwd]
    rcases hf with ⟨h1, h2, _⟩ | ⟨h1, h2, _⟩ <;> rcases hs with ⟨g1, g2⟩ | ⟨g1, g2⟩
    · exact ⟨y, fun e => hd.stat .dir (e ▸ h1), h2, g2⟩
    · rw [h1] at g1; cases g1
    · rw [h1] at g1; cases g1
    · exact ⟨Path.dir y, clean_ne_nil _, h2, g2⟩
  obtain ⟨d, hdn, hg, rfl⟩ := find hm ha
  obtain ⟨e, hen, hg', rfl⟩ := find hm' hb
  refine ⟨same_configuration hd.wd hd.workDirPath hdn hen hg hg' hsame, ?_⟩
  obtain ⟨_, _, _, _, _, _, _, _, e⟩ := getForDirOf_stages hg
  rw [e]

/-- The names in the output are those of single files. -/
theorem own_names {h : Exec.Host} {c : File.Provider} {o : Order} (hd : Discovers h c o)
    {args : List Str} {m : Meta} (hm : Finds h args m) {host : Lint.Host}
    (hdisp : Displayed host m.protoSet) : OwnNames m.protoSet false := by
  have hdist := C38_distinct h c o hd args m hm
  obtain ⟨d, hg, hne, _⟩ := hd.get hm
  obtain ⟨_, _, _, _, _, _, h5⟩ := C21_discovery c o h.workDirPath d hd.wd hd.workDirPath hne
    hd.tree hd.excludes m.protoSet hg
  refine ⟨h5, ?_⟩
  have hu := hdisp.unique
  unfold Distinct at hdist
  change ((allFiles m.protoSet).map fun f => f.path).Nodup at hdist
  generalize allFiles m.protoSet = xs at *
  induction xs with
  | nil => exact List.nodup_nil
  | cons x xs ih =>
    rw [List.map_cons, List.nodup_cons] at hdist ⊢
    refine ⟨fun hx => hdist.1 ?_, ih (fun f hf g hg =>
      hu f (List.mem_cons_of_mem _ hf) g (List.mem_cons_of_mem _ hg)) hdist.2⟩
    obtain ⟨y, hy, e⟩ := List.mem_map.1 hx
    exact List.mem_map.2 ⟨y, hy, (hu y (List.mem_cons_of_mem _ hy) x List.mem_cons_self).2 e⟩

/-- A failure about a file is shown exactly if the file is meant. -/
theorem shown_iff {h : Exec.Host} {c : File.Provider} {ps : ProtoSet} (hwd : h.wd = c.wd)
    (hcwd : IsAbsPath c.wd) {disk : Disk} (hdisp : Displayed (lintHost h disk) ps)
    {g : ProtoFile} (hg : g ∈ allFiles ps) (m : Meta) {f : Text.Failure}
    (hf : f.filename = g.displayPath) (hrel : Path.isAbs g.displayPath = false) :
    Shown h m f ↔ (m.singleFilename = [] ∨ g.path = absClean h.wd m.singleFilename) := by
  have hlies : absClean h.wd g.displayPath = g.path := by
    have := hdisp.lies g hg
    unfold LiesAt at this
    rw [hrel] at this
    have h2 : (lintHost h disk).abs g.displayPath = .ok g.path := by simpa using this
    have h3 : (lintHost h disk).abs g.displayPath = .ok (absClean h.wd g.displayPath) := rfl
    rw [h3] at h2
    injection h2
  unfold Shown
  rw [hf, hlies]
  constructor
  · rintro (e | e | e)
    · exact .inl e
    · exact .inr (by rw [e, hlies])
    · exact .inr e.symm
  · rintro (e | e)
    · exact .inl e
    · exact .inr (.inr e.symm)

/-- What is shown by a run. -/
def shownOf (h : Exec.Host) (m : Meta) (failures : List Text.Failure) : List Text.Failure :=
  (Text.sortFailures failures).filter fun f => decide (Shown h m f)

theorem about_shown {h : Exec.Host} {m : Meta} {fs : List Text.Failure} {name : Str}
    (hs : ∀ f, f.filename = name → Shown h m f) (hsorted : Text.sortFailures fs = fs) :
    about name (shownOf h m fs) = about name fs := by
  unfold about shownOf
  rw [hsorted, List.filter_filter]
  refine List.filter_congr fun f _ => ?_
  by_cases e : f.filename = name
  · simp [e, hs f e]
  · simp [e]

/-- What the two runs show. -/
theorem lint_shown (h : Exec.Host) (c : File.Provider) (o : Order) (hd : Discovers h c o)
    (hparse : ParserOK h) (hp : Prints h) (hc : CanPrint h) (env : Lint.Env) (srt : SortSlice)
    (a b : Str) (m m' : Meta) (hm : Finds h [a] m) (hm' : Finds h [b] m')
    (da db : Str) (ha : StandsFor h a da) (hb : StandsFor h b db) (hsame : SameConfiguration c da db)
    (hh : RunsHere h c m.protoSet) (w w' : World) (hcomp : Compiles h {} m w.disk)
    (hcomp' : Compiles h {} m' w'.disk) (fs fs' : List Text.Failure)
    (hl : Lint.run env (lintHost h w.disk) m.protoSet false = some (.ok fs))
    (hl' : Lint.run env (lintHost h w'.disk) m'.protoSet false = some (.ok fs')) :
      (lintCmd h env srt [a] {} w).1 = { w with out := w.out ++ (shownOf h m fs).flatMap (lineOf h) } ∧
      (lintCmd h env srt [b] {} w').1 = { w' with out := w'.out ++ (shownOf h m' fs').flatMap (lineOf h) } ∧
      (∀ f ∈ (shownOf h m fs), AsksRule m.protoSet.config.lint f.lintID ∧
        ∃ g, Concerns h m g ∧ f.filename = g.displayPath) ∧
      ∀ g, Concerns h m g → Concerns h m' g → w'.disk g.path = w.disk g.path →
        (about g.displayPath (shownOf h m' fs')).filter (fun f => decide (f.lintID ∉ directoryRules)) =
          (about g.displayPath (shownOf h m fs)).filter (fun f => decide (f.lintID ∉ directoryRules)) ∧
        ((∀ g', Found m g' → Path.dir g'.path = Path.dir g.path → w'.disk g'.path = w.disk g'.path) →
          about g.displayPath (shownOf h m' fs') = about g.displayPath (shownOf h m fs)) := by
  obtain ⟨hps, hda⟩ := same_files hd hh.wd hm hm' ha hb hsame
  have hfiles : m'.protoSet.dirPathToFiles = m.protoSet.dirPathToFiles := by rw [hps]
  have hconfig : m'.protoSet.config = m.protoSet.config := by rw [hps]
  have hall : allFiles m'.protoSet = allFiles m.protoSet := by unfold allFiles; rw [hfiles]
  have hh' : RunsHere h c m'.protoSet := ⟨hh.wd, hh.workDirPath, fun f hf => hh.files f (hall ▸ hf)⟩
  obtain ⟨_, hdisp, hsound⟩ := C82_discovered h c o hd [a] m hm hh hparse w.disk
  obtain ⟨_, hdisp', hsound'⟩ := C82_discovered h c o hd [b] m' hm' hh' hparse w'.disk
  have hown := own_names hd hm hdisp
  have hown' := own_names hd hm' hdisp'
  obtain ⟨d, hg, hne, _⟩ := hd.get hm
  have hdirs := listed_dirs hg
  have hdisc := discovered hd.wd hd.workDirPath hne hd.tree hd.excludes hg hh.workDirPath hh.files
  have hrel : ∀ g ∈ allFiles m.protoSet, Path.isAbs g.displayPath = false := by
    intro g hgm
    obtain ⟨h1, h2, _⟩ := hdisc g hgm
    rw [h2]
    exact (displayPathOf_leads hd.wd h1 (hh.files g hgm)).1
  have hsort : Text.sortFailures fs = fs := by
    obtain ⟨ls, _, _, rfl⟩ := (Lint.run_dirs_iff (hsound false)).1 hl
    exact (C18_unique _ _ (.refl _) (C18_sorted _).2).symm
  have hsort' : Text.sortFailures fs' = fs' := by
    obtain ⟨ls, _, _, rfl⟩ := (Lint.run_dirs_iff (hsound' false)).1 hl'
    exact (C18_unique _ _ (.refl _) (C18_sorted _).2).symm
  refine ⟨?_, ?_, ?_, ?_⟩
  · rw [C62_lint h hp hc env srt [a] m hm w hcomp fs hl]; rfl
  · rw [C62_lint h hp hc env srt [b] m' hm' w' hcomp' fs' hl']; rfl
  · intro f hf
    obtain ⟨hf, hsh⟩ := List.mem_filter.1 hf
    rw [hsort] at hf
    obtain ⟨h1, g, hgf, e⟩ := C92_about env _ _ false (hsound false) fs hl f hf
    refine ⟨h1, g, ?_, e⟩
    obtain ⟨p, hpf, hgp⟩ := List.mem_flatMap.1 hgf
    obtain ⟨hpm, hpp⟩ := List.mem_filter.1 hpf
    have hgall : g ∈ allFiles m.protoSet := List.mem_flatMap.2 ⟨p, hpm, hgp⟩
    exact ⟨⟨p.1, p.2, hpm, List.isPrefixOf_iff_prefix.1 hpp, hgp⟩,
      (shown_iff hh.wd hd.wd hdisp hgall m e (hrel g hgall)).1 (by simpa using hsh)⟩
  · rintro g ⟨⟨dir, files, k1, k2, k3⟩, k4⟩ ⟨⟨dir', files', k1', k2', k3'⟩, k4'⟩ hdisk
    have hgall : g ∈ allFiles m.protoSet := List.mem_flatMap.2 ⟨_, k1, k3⟩
    rw [hfiles] at k1'
    have hd1 := hdirs _ k1 g k3
    have hd2 := hdirs _ k1' g k3'
    have e : ((dir', files') : Str × List ProtoFile) = (dir, files) :=
      Lint.own_dir hown k1' k1 k3' k3 rfl
    cases e
    have s1 : about g.displayPath (shownOf h m fs) = about g.displayPath fs :=
      about_shown (fun f hf => (shown_iff hh.wd hd.wd hdisp hgall m hf (hrel g hgall)).2 k4) hsort
    have s2 : about g.displayPath (shownOf h m' fs') = about g.displayPath fs' :=
      about_shown (fun f hf => (shown_iff hh.wd hd.wd hdisp hgall m' hf (hrel g hgall)).2 k4') hsort'
    have hp1 : ∀ x : ProtoFile, w'.disk x.path = w.disk x.path →
        (lintHost h w'.disk).parse x.path (nameIn false x) =
          (lintHost h w.disk).parse x.path (nameIn false x) := by
      intro x hx
      unfold lintHost
      dsimp only
      rw [hx]
    rw [s1, s2]
    have k1'' : (dir, files) ∈ m'.protoSet.dirPathToFiles := hfiles ▸ k1'
    refine ⟨C92_alone env (lintHost h w.disk) (lintHost h w'.disk) m.protoSet m'.protoSet false
      (hsound false) (hsound' false) hown hown' hconfig rfl dir files files k1 k1'' k2 k2' g k3 k3
      (hp1 g hdisk) fs fs' hl hl', fun hsibling => ?_⟩
    exact C92_run env (lintHost h w.disk) (lintHost h w'.disk) m.protoSet m'.protoSet false
      (hsound false) (hsound' false) hown hown' hconfig rfl dir files k1 k1'' k2 k2'
      (fun x hx => hp1 x (hsibling x ⟨dir, files, k1, hx⟩ ((hdirs _ k1 x hx).trans hd1.symm)))
      fs fs' hl hl' g k3

/-- C92: let `lint` be given two files or directories that are governed by the same configuration.
Both runs print lines about files they were asked about only, and under rules that the
configuration asks for. About a file that both were asked about they print the same lines, if
the files in its directory have the same contents in both runs; what the rules for single files
say is the same already if that file has the same contents. -/
theorem C92_lint (h : Exec.Host) (c : File.Provider) (o : Order) (hd : Discovers h c o)
    (hparse : ParserOK h) (hp : Prints h) (hc : CanPrint h) (env : Lint.Env) (srt : SortSlice)
    (a b : Str) (m m' : Meta) (hm : Finds h [a] m) (hm' : Finds h [b] m')
    (da db : Str) (ha : StandsFor h a da) (hb : StandsFor h b db) (hsame : SameConfiguration c da db)
    (hh : RunsHere h c m.protoSet) (w w' : World) (hcomp : Compiles h {} m w.disk)
    (hcomp' : Compiles h {} m' w'.disk) (fs fs' : List Text.Failure)
    (hl : Lint.run env (lintHost h w.disk) m.protoSet false = some (.ok fs))
    (hl' : Lint.run env (lintHost h w'.disk) m'.protoSet false = some (.ok fs')) :
    ∃ shown shown',
      (lintCmd h env srt [a] {} w).1 = { w with out := w.out ++ shown.flatMap (lineOf h) } ∧
      (lintCmd h env srt [b] {} w').1 = { w' with out := w'.out ++ shown'.flatMap (lineOf h) } ∧
      (∀ f ∈ shown, AsksRule m.protoSet.config.lint f.lintID ∧
        ∃ g, Concerns h m g ∧ f.filename = g.displayPath) ∧
      ∀ g, Concerns h m g → Concerns h m' g → w'.disk g.path = w.disk g.path →
        (about g.displayPath shown').filter (fun f => decide (f.lintID ∉ directoryRules)) =
          (about g.displayPath shown).filter (fun f => decide (f.lintID ∉ directoryRules)) ∧
        ((∀ g', Found m g' → Path.dir g'.path = Path.dir g.path → w'.disk g'.path = w.disk g'.path) →
          about g.displayPath shown' = about g.displayPath shown) :=
  ⟨_, _, lint_shown h c o hd hparse hp hc env srt a b m m' hm hm' da db ha hb hsame hh w w' hcomp hcomp' fs fs' hl hl'⟩

/-- C92, for format: let `format --overwrite` be given one or the other of two files or directories
that are governed by the same configuration. If both runs end well, a file that both were asked
about holds the same text afterwards, if it held the same before. -/
theorem C92_format (h : Exec.Host) (c : File.Provider) (o : Order) (hd : Discovers h c o)
    (hwd : h.wd = c.wd) (hp : Prints h) (srt : SortSlice)
    (a b : Str) (m m' : Meta) (hm : Finds h [a] m) (hm' : Finds h [b] m')
    (da db : Str) (ha : StandsFor h a da) (hb : StandsFor h b db) (hsame : SameConfiguration c da db)
    (flags : FormatFlags) (hf : flags.overwrite = true) (w w' : World)
    (hok : (formatCmd h o srt [a] flags w).2 = .ok ())
    (hok' : (formatCmd h o srt [b] flags w').2 = .ok ())
    (g : ProtoFile) (hg : Concerns h m g) (hg' : Concerns h m' g)
    (hdisk : w'.disk g.path = w.disk g.path) :
    (formatCmd h o srt [b] flags w').1.disk g.path = (formatCmd h o srt [a] flags w).1.disk g.path := by
  obtain ⟨hps, _⟩ := same_files hd hwd hm hm' ha hb hsame
  have hconfig : m'.protoSet.config = m.protoSet.config := by rw [hps]
  obtain ⟨x, t, h1, ⟨es, h2, h3⟩, h4⟩ := C38_overwritten h hp o srt [a] flags hf m hm
    (C38_distinct h c o hd [a] m hm) w hok g hg
  obtain ⟨x', t', h1', ⟨es', h2', h3'⟩, h4'⟩ := C38_overwritten h hp o srt [b] flags hf m' hm'
    (C38_distinct h c o hd [b] m' hm') w' hok' g hg'
  rw [hdisk, h1] at h1'
  cases h1'
  rw [h2] at h2'
  cases h2'
  rw [hconfig, h3] at h3'
  cases h3'
  rw [h4, h4']

/-! ## These theorems are about something -/

/-- The same, where the directory above and one file of the working directory can be asked for. -/
def nestedHost : Exec.Host :=
  { besideHost with
    stat := fun p => if p = s%".." then .ok .dir else if p = s%"z.proto" then .ok .regular
      else .error s%"no such file" }

theorem nested_discovers : Discovers nestedHost besideProvider Order.id where
  getForDir := rfl
  wd := beside_discovers.wd
  workDirPath := beside_discovers.workDirPath
  stat := fun k h => by simp [nestedHost] at h
  tree := beside_discovers.tree
  excludes := beside_discovers.excludes

theorem nested_nearest (d : Str) (hd : d = s%"/w" ∨ d = s%"/w/a") :
    NearestConfig besideProvider.host.stat d s%"/w" := by
  have hcf : ∀ d' p, ConfigFile besideProvider.host.stat d' p → d' = s%"/w" := by
    rintro d' p ⟨cs, name, hcs, hname, rfl, rfl, h⟩
    have h : absPath (cs ++ [name]) = absPath [s%"w", s%"prototool.yaml"] := by
      have : decide (absPath (cs ++ [name]) = s%"/w/prototool.yaml") = true := h
      have e := of_decide_eq_true this
      exact e
    have hc : Components (cs ++ [name]) := by
      rcases hname with rfl | rfl
      · exact components_snoc hcs component_yaml
      · exact components_snoc hcs component_json
    have := absPath_inj hc (by unfold Components Component; decide) h
    have e : cs = [s%"w"] := (List.append_inj' (s₁ := cs) (s₂ := [s%"w"]) (t₁ := [name]) (t₂ := [s%"prototool.yaml"]) this rfl).1
    rw [e]
    rfl
  refine ⟨?_, ⟨s%"/w/prototool.yaml", ⟨[s%"w"], s%"prototool.yaml",
    by unfold Components Component; decide, .inl rfl, rfl, rfl, by decide⟩⟩, ?_⟩
  · rcases hd with rfl | rfl <;> exact Exec.Sample.isWithin_iff.1 (by decide)
  · intro d' _ hb p hp
    rw [hcf d' p hp] at hb
    obtain ⟨cs, ds, h1, h2, h3, h4⟩ := hb
    have := absPath_inj (components_append.1 h1).1 h1 (h3.symm.trans h4)
    simp at this
    exact h2 this

/-- The hypotheses of `C92_lint` hold of `lint ..` and `lint z.proto`, and both complain about
`z.proto`. -/
example : ∃ m m' fs fs' g, Finds nestedHost [s%".."] m ∧ Finds nestedHost [s%"z.proto"] m' ∧
    StandsFor nestedHost s%".." s%"/w" ∧ StandsFor nestedHost s%"z.proto" s%"/w/a" ∧
    SameConfiguration besideProvider s%"/w" s%"/w/a" ∧ RunsHere nestedHost besideProvider m.protoSet ∧
    ParserOK nestedHost ∧ Prints nestedHost ∧ CanPrint nestedHost ∧
    Lint.run sampleEnv (lintHost nestedHost besideWorld.disk) m.protoSet false = some (.ok fs) ∧
    Lint.run sampleEnv (lintHost nestedHost besideWorld.disk) m'.protoSet false = some (.ok fs') ∧
    Concerns nestedHost m g ∧ Concerns nestedHost m' g ∧
    fs.map (fun f => (f.lintID, f.filename)) =
      [(s%"SYNTAX_PROTO3", s%"../b.proto"), (s%"SYNTAX_PROTO3", s%"z.proto")] ∧
    (about g.displayPath fs').map (fun f => (f.lintID, f.filename)) =
      [(s%"SYNTAX_PROTO3", s%"z.proto")] := by
  obtain ⟨ps, hps, hfiles, hdp, fs, hrun, hnames⟩ : ∃ ps, getForDirOf besideProvider Order.id s%"/w/a" s%".." = .ok ps ∧
      ps.dirPathToFiles = [(s%"/w/a", [⟨s%"/w/a/x.proto", s%"x.proto"⟩, ⟨s%"/w/a/z.proto", s%"z.proto"⟩]),
        (s%"/w", [⟨s%"/w/b.proto", s%"../b.proto"⟩])] ∧ ps.dirPath = s%"/w" ∧
      ∃ fs, Lint.run sampleEnv (lintHost nestedHost besideWorld.disk) ps false = some (.ok fs) ∧
        fs.map (fun f => (f.lintID, f.filename)) =
          [(s%"SYNTAX_PROTO3", s%"../b.proto"), (s%"SYNTAX_PROTO3", s%"z.proto")] :=
    ⟨_, rfl, rfl, rfl, _, rfl, by decide +kernel⟩
  obtain ⟨ps', hps', hfiles', hdp', fs', hrun', hnames'⟩ : ∃ ps, getForDirOf besideProvider Order.id s%"/w/a" s%"." = .ok ps ∧
      ps.dirPathToFiles = [(s%"/w/a", [⟨s%"/w/a/x.proto", s%"x.proto"⟩, ⟨s%"/w/a/z.proto", s%"z.proto"⟩]),
        (s%"/w", [⟨s%"/w/b.proto", s%"../b.proto"⟩])] ∧ ps.dirPath = s%"/w/a" ∧
      ∃ fs, Lint.run sampleEnv (lintHost nestedHost besideWorld.disk) ps false = some (.ok fs) ∧
        (about s%"z.proto" fs).map (fun f => (f.lintID, f.filename)) = [(s%"SYNTAX_PROTO3", s%"z.proto")] :=
    ⟨_, rfl, rfl, rfl, _, rfl, by decide +kernel⟩
  refine ⟨{ protoSet := ps }, { protoSet := ps', singleFilename := s%"z.proto" }, fs, fs',
    ⟨s%"/w/a/z.proto", s%"z.proto"⟩, ⟨s%"..", .inl rfl, .inl ⟨rfl, hps, rfl⟩⟩,
    ⟨s%"z.proto", .inl rfl, .inr ⟨rfl, hps', rfl⟩⟩, .inl ⟨rfl, by decide⟩, .inr ⟨rfl, by decide⟩,
    .inr (.inr ⟨s%"/w", nested_nearest _ (.inl rfl), nested_nearest _ (.inr rfl)⟩),
    ⟨rfl, by decide, ?_⟩, ⟨?_, ?_⟩, fun _ _ => rfl, ⟨⟨_, rfl⟩, fun h => nomatch h⟩, hrun, hrun', ?_, ?_, hnames, hnames'⟩
  · unfold allFiles
    rw [hfiles]
    simp only [← Exec.Sample.isWithin_iff]
    decide
  · intro filename data elements h config
    cases h
    constructor <;> intro n hn <;> cases List.mem_singleton.1 hn
    · rfl
    · exact ⟨rfl, fun _ h => nomatch h⟩
  · intro filename data elements h ρ
    cases h
    rfl
  · refine ⟨⟨s%"/w/a", _, by rw [hfiles]; exact List.mem_cons_self, ?_, by decide⟩, .inl rfl⟩
    show ps.dirPath <+: _
    rw [hdp]
    decide
  · refine ⟨⟨s%"/w/a", _, by rw [hfiles']; exact List.mem_cons_self, ?_, by decide⟩, .inr ?_⟩
    · show ps'.dirPath <+: _
      rw [hdp']
      decide
    · show s%"/w/a/z.proto" = absClean s%"/w/a" s%"z.proto"
      decide

end Verif.Props
