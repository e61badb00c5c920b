import Verif.Proof.RenameRun
import Verif.Proof.LintTotal
import Verif.Proof.DiscoveryOrder
import Verif.Spec.Scope

/-! # What a lint run says about the files of one directory -/

namespace Verif.Lint

open Verif Proto Spec Props

theorem count_only {α β : Type} [BEq β] [LawfulBEq β] {xs : List α} {F : α → List β} {x : α} (b : β)
    (hx : x ∈ xs) (hn : xs.Nodup) (h : ∀ y ∈ xs, y ≠ x → (F y).count b = 0) :
    (xs.flatMap F).count b = (F x).count b := by
  induction xs with
  | nil => cases hx
  | cons a xs ih =>
    rw [List.nodup_cons] at hn
    rw [List.flatMap_cons, List.count_append]
    rcases List.mem_cons.1 hx with rfl | hx
    · have : (xs.flatMap F).count b = 0 := by
        rw [List.count_eq_zero]
        intro hb
        obtain ⟨y, hy, hb⟩ := List.mem_flatMap.1 hb
        have := h y (List.mem_cons_of_mem _ hy) fun e => hn.1 (e ▸ hy)
        rw [List.count_eq_zero] at this
        exact this hb
      omega
    · rw [h a List.mem_cons_self fun e => hn.1 (e ▸ hx),
        ih hx hn.2 fun y hy => h y (List.mem_cons_of_mem _ hy)]
      omega

/-- The names of the parsed files are those of the files. -/
theorem descriptorsOf_names {host : Host} {ps : File.ProtoSet} {abs : Bool}
    {fs : List File.ProtoFile} {ds : List FileDescriptor}
    (h : descriptorsOf host ps abs fs = .ok ds) : ds.map (·.filename) = fs.map (nameIn abs) := by
  induction fs generalizing ds with
  | nil => cases h; rfl
  | cons f fs ih =>
    unfold descriptorsOf at h
    cases hf : descriptorOf host ps abs f with
    | error e => rw [hf] at h; cases h
    | ok d =>
      rw [hf] at h
      dsimp only at h
      cases hr : descriptorsOf host ps abs fs with
      | error e => rw [hr] at h; cases h
      | ok ds' =>
        rw [hr] at h
        cases h
        rw [List.map_cons, List.map_cons, ih hr]
        congr 1
        unfold descriptorOf at hf
        dsimp only at hf
        cases hparse : host.parse f.path (if abs then f.path else f.displayPath) with
        | error e => rw [hparse] at hf; cases hf
        | ok x => rw [hparse] at hf; cases hf; rfl

/-- The parsed files of a list of files that can be parsed. -/
def parsedOf (host : Host) (ps : File.ProtoSet) (abs : Bool) (fs : List File.ProtoFile) :
    List FileDescriptor :=
  match descriptorsOf host ps abs fs with
  | .ok ds => ds
  | .error _ => []

theorem dirResults_eq {host : Host} {ps : File.ProtoSet} {abs : Bool}
    {dirs : List (Str × List FileDescriptor)} (h : dirResults host ps abs = dirs.map .ok) :
    dirs = (ps.dirPathToFiles.filter fun p => Str.hasPrefix p.1 ps.dirPath).map
        (fun p => (p.1, parsedOf host ps abs p.2)) ∧
      ∀ p ∈ ps.dirPathToFiles.filter (fun p => Str.hasPrefix p.1 ps.dirPath),
        descriptorsOf host ps abs p.2 = .ok (parsedOf host ps abs p.2) := by
  unfold dirResults at h
  generalize ps.dirPathToFiles.filter (fun p => Str.hasPrefix p.1 ps.dirPath) = xs at h ⊢
  induction xs generalizing dirs with
  | nil =>
    cases dirs with
    | nil => exact ⟨rfl, fun _ h => nomatch h⟩
    | cons _ _ => cases h
  | cons x xs ih =>
    cases dirs with
    | nil => cases h
    | cons d dirs =>
      rw [List.map_cons, List.map_cons, List.cons.injEq] at h
      obtain ⟨h1, h2⟩ := h
      obtain ⟨i1, i2⟩ := ih h2
      cases hr : descriptorsOf host ps abs x.2 with
      | error e => rw [hr] at h1; cases h1
      | ok ds =>
        rw [hr] at h1
        cases h1
        have hp : parsedOf host ps abs x.2 = ds := by unfold parsedOf; rw [hr]
        rw [List.map_cons, hp, ← i1]
        refine ⟨rfl, List.forall_mem_cons.2 ⟨?_, i2⟩⟩
        rw [hp, hr]

theorem dirResults_of {host : Host} {ps : File.ProtoSet} {abs : Bool}
    (h : ∀ p ∈ ps.dirPathToFiles.filter (fun p => Str.hasPrefix p.1 ps.dirPath),
        descriptorsOf host ps abs p.2 = .ok (parsedOf host ps abs p.2)) :
    dirResults host ps abs = ((ps.dirPathToFiles.filter fun p => Str.hasPrefix p.1 ps.dirPath).map
        (fun p => (p.1, parsedOf host ps abs p.2))).map .ok := by
  unfold dirResults
  rw [List.map_map]
  refine List.map_congr_left fun p hp => ?_
  rw [h p hp]
  rfl

theorem parsedOf_config {host : Host} {ps ps' : File.ProtoSet} {abs : Bool}
    (hc : ps'.config = ps.config) (fs : List File.ProtoFile) :
    descriptorsOf host ps' abs fs = descriptorsOf host ps abs fs ∧
      parsedOf host ps' abs fs = parsedOf host ps abs fs := by
  have : descriptorsOf host ps' abs fs = descriptorsOf host ps abs fs := by
    induction fs with
    | nil => rfl
    | cons f fs ih =>
      unfold descriptorsOf
      have : descriptorOf host ps' abs f = descriptorOf host ps abs f := by
        unfold descriptorOf; rw [hc]
      rw [this, ih]
  exact ⟨this, by unfold parsedOf; rw [this]⟩

/-- What the rules say about the files of a directory. -/
noncomputable def saysOf (host : Host) (ps : File.ProtoSet) (abs : Bool) (ls : List Linter)
    (p : Str × List File.ProtoFile) : List Text.Failure :=
  ls.flatMap fun l => okOf (l.check p.1 ((parsedOf host ps abs p.2).filter fun d =>
    kept host ps.config.dirPath ps.config.lint.ignoreIDToFilePaths l.id d.filename))

/-- Every rule goes well on the files of the directory. -/
def GoesOf (host : Host) (ps : File.ProtoSet) (abs : Bool) (ls : List Linter)
    (p : Str × List File.ProtoFile) : Prop :=
  ∀ l ∈ ls, IsOk (l.check p.1 ((parsedOf host ps abs p.2).filter fun d =>
    kept host ps.config.dirPath ps.config.lint.ignoreIDToFilePaths l.id d.filename))

/-- A run in terms of its directories. -/
theorem run_dirs_iff {env : Env} {host : Host} {ps : File.ProtoSet} {abs : Bool}
    (hs : Sound host ps abs) {fs : List Text.Failure} :
    run env host ps abs = some (.ok fs) ↔ ∃ ls, getLinters env ps.config.lint = .ok ls ∧
      (∀ p ∈ ps.dirPathToFiles.filter (fun p => Str.hasPrefix p.1 ps.dirPath),
        descriptorsOf host ps abs p.2 = .ok (parsedOf host ps abs p.2) ∧
        GoesOf host ps abs ls p) ∧
      fs = Text.sortFailures ((ps.dirPathToFiles.filter fun p => Str.hasPrefix p.1 ps.dirPath).flatMap
        (saysOf host ps abs ls)) := by
  have hign : ignoring ps.config.lint.ignoreIDToFilePaths ps = ps := rfl
  have := run_ignoring_iff (env := env) hs (m := ps.config.lint.ignoreIDToFilePaths) (fs := fs)
  rw [hign] at this
  rw [this]
  refine exists_congr fun ls => and_congr_right fun hl => ?_
  constructor
  · rintro ⟨dirs, hd, hok, rfl⟩
    obtain ⟨rfl, h2⟩ := dirResults_eq hd
    refine ⟨fun p hp => ⟨h2 p hp, fun l hlm => hok _ (List.mem_map_of_mem hp) l hlm⟩, ?_⟩
    rw [List.flatMap_map]
    rfl
  · rintro ⟨h1, rfl⟩
    refine ⟨_, dirResults_of fun p hp => (h1 p hp).1, ?_, ?_⟩
    · intro q hq l hlm
      obtain ⟨p, hp, rfl⟩ := List.mem_map.1 hq
      exact (h1 p hp).2 l hlm
    · rw [List.flatMap_map]
      rfl

theorem linters_all {env : Env} {c : Settings.LintConfig} {ls : List Linter}
    (hl : getLinters env c = .ok ls) : ∀ l ∈ ls, l ∈ allLinters env ∧ AsksRule c l.id := by
  rcases getLinters_spec env c with ⟨_, ls', h1, h2, _, h3⟩ | ⟨_, e, h1⟩
  · rw [hl] at h1; cases h1
    exact fun l hlm => ⟨h2 l hlm, (h3 _).1 (List.mem_map_of_mem hlm)⟩
  · rw [hl] at h1; cases h1

/-- The files of a directory as parsed. -/
theorem parsed_of {host : Host} {ps : File.ProtoSet} {abs : Bool}
    (hs : Sound host ps abs) {p : Str × List File.ProtoFile} (hp : p ∈ ps.dirPathToFiles)
    (hparse : descriptorsOf host ps abs p.2 = .ok (parsedOf host ps abs p.2)) :
    ∀ d ∈ parsedOf host ps abs p.2, Parsed d := by
  intro d hd
  obtain ⟨g, hg, hdesc⟩ := descriptorsOf_mem hparse d hd
  obtain ⟨h1, h2⟩ := hs.files p hp g hg
  unfold descriptorOf at hdesc
  dsimp only at hdesc
  cases hx : host.parse g.path (if abs then g.path else g.displayPath) with
  | error e => rw [hx] at hdesc; cases hdesc
  | ok x =>
    obtain ⟨els, data⟩ := x
    rw [hx] at hdesc
    cases hdesc
    obtain ⟨h3, h4⟩ := hs.parse _ _ _ _ hx ps.config
    exact ⟨h3, h4, h1⟩

/-- What is said about the files of a directory names one of them, and a rule that was asked for. -/
theorem says_lands {env : Env} {host : Host} {ps : File.ProtoSet} {abs : Bool}
    (hs : Sound host ps abs) {ls : List Linter} (hl : getLinters env ps.config.lint = .ok ls)
    {p : Str × List File.ProtoFile} (hp : p ∈ ps.dirPathToFiles)
    (hparse : descriptorsOf host ps abs p.2 = .ok (parsedOf host ps abs p.2))
    (hok : GoesOf host ps abs ls p) :
    ∀ f ∈ saysOf host ps abs ls p, AsksRule ps.config.lint f.lintID ∧
      ∃ g ∈ p.2, f.filename = nameIn abs g := by
  intro f hf
  obtain ⟨l, hlm, hf⟩ := List.mem_flatMap.1 hf
  obtain ⟨fs, hfs⟩ := hok l hlm
  rw [hfs] at hf
  have hparsed := parsed_of hs hp hparse
  obtain ⟨hall, hask⟩ := linters_all hl l hlm
  obtain ⟨d, hd, e⟩ := check_lands hall (fun d hd => hparsed d (List.mem_filter.1 hd).1) hfs f hf
  have hid : f.lintID = l.id := by
    rcases rule_cases env l hall with ⟨_, h⟩ | h
    · obtain ⟨g, h1, h2, _⟩ := h p.1 _ fs (fun d hd => hparsed d (List.mem_filter.1 hd).1) hfs
      have hf' : f ∈ fs := hf
      rw [h1] at hf'
      obtain ⟨d', hd', hf'⟩ := List.mem_flatMap.1 hf'
      exact (h2 d' hd' f hf').2
    · obtain ⟨fs', h1, h2⟩ := h.lands p.1 _ fun d hd => hparsed d (List.mem_filter.1 hd).1
      rw [hfs] at h1; cases h1
      exact (h2 f hf).1
  have hname : d.filename ∈ p.2.map (nameIn abs) := by
    rw [← descriptorsOf_names hparse]
    exact List.mem_map_of_mem (List.mem_filter.1 hd).1
  obtain ⟨g, hg, e'⟩ := List.mem_map.1 hname
  exact ⟨hid ▸ hask, g, hg, e.trans e'.symm⟩

/-- Whatever a run says is about one of its files, and of a rule that was asked for. -/
theorem run_about {env : Env} {host : Host} {ps : File.ProtoSet} {abs : Bool}
    (hs : Sound host ps abs) {fs : List Text.Failure} (h : run env host ps abs = some (.ok fs)) :
    ∀ f ∈ fs, AsksRule ps.config.lint f.lintID ∧ ∃ g ∈ filesOf ps, f.filename = nameIn abs g := by
  obtain ⟨ls, hl, hok, rfl⟩ := (run_dirs_iff hs).1 h
  intro f hf
  rw [(C18_sorted _).1.mem_iff] at hf
  obtain ⟨p, hp, hf⟩ := List.mem_flatMap.1 hf
  obtain ⟨h1, g, hg, e⟩ := says_lands hs hl (List.mem_filter.1 hp).1 (hok p hp).1 (hok p hp).2 f hf
  exact ⟨h1, g, List.mem_flatMap.2 ⟨p, hp, hg⟩, e⟩

/-- Only one directory has a file of that name. -/
theorem own_dir {ps : File.ProtoSet} {abs : Bool} (hown : OwnNames ps abs)
    {p q : Str × List File.ProtoFile} (hp : p ∈ ps.dirPathToFiles) (hq : q ∈ ps.dirPathToFiles)
    {f g : File.ProtoFile} (hf : f ∈ p.2) (hg : g ∈ q.2) (e : nameIn abs f = nameIn abs g) : p = q := by
  have hn := hown.2
  unfold allFiles at hn
  clear hown
  generalize ps.dirPathToFiles = xs at *
  induction xs with
  | nil => cases hp
  | cons x xs ih =>
    rw [List.flatMap_cons, List.map_append, List.nodup_append] at hn
    obtain ⟨_, h2, h3⟩ := hn
    have other : ∀ y ∈ xs, ∀ a ∈ y.2, ∀ b ∈ x.2, nameIn abs b ≠ nameIn abs a := fun y hy a ha b hb =>
      h3 _ (List.mem_map_of_mem hb) _ (List.mem_map_of_mem (List.mem_flatMap.2 ⟨y, hy, ha⟩))
    rcases List.mem_cons.1 hp with hp | hp <;> rcases List.mem_cons.1 hq with hq | hq
    · rw [hp, hq]
    · exact absurd e (other q hq g hg f (hp ▸ hf))
    · exact absurd e.symm (other p hp f hf g (hq ▸ hg))
    · exact ih hp hq h2

/-- A name belongs to one file of the directory. -/
theorem own_file {ps : File.ProtoSet} {abs : Bool} (hown : OwnNames ps abs)
    {p : Str × List File.ProtoFile} (hp : p ∈ ps.dirPathToFiles)
    {g : File.ProtoFile} (hg : g ∈ p.2) :
    p.2.filter (fun f => nameIn abs f == nameIn abs g) = [g] := by
  have hn : (p.2.map (nameIn abs)).Nodup := by
    have hn := hown.2
    unfold allFiles at hn
    clear hown
    generalize ps.dirPathToFiles = xs at *
    induction xs with
    | nil => cases hp
    | cons x xs ih =>
      rw [List.flatMap_cons, List.map_append, List.nodup_append] at hn
      rcases List.mem_cons.1 hp with hp | hp
      · exact hp ▸ hn.1
      · exact ih hp hn.2.1
  generalize p.2 = xs at *
  clear hp
  induction xs with
  | nil => cases hg
  | cons x xs ih =>
    rw [List.map_cons, List.nodup_cons] at hn
    rw [List.filter_cons]
    rcases List.mem_cons.1 hg with rfl | hg
    · rw [if_pos (by simp), List.filter_eq_nil_iff.2]
      intro f hf e
      exact hn.1 (List.mem_map.2 ⟨f, hf, by simpa using e⟩)
    · rw [if_neg, ih hg hn.2]
      intro e
      have e : nameIn abs x = nameIn abs g := by simpa using e
      exact hn.1 (List.mem_map.2 ⟨g, hg, e.symm⟩)

/-- What a run says about a file is what the rules say about the directory of the file. -/
theorem run_about_eq {env : Env} {host : Host} {ps : File.ProtoSet} {abs : Bool}
    (hs : Sound host ps abs) (hown : OwnNames ps abs) {fs : List Text.Failure}
    (h : run env host ps abs = some (.ok fs)) {dir : Str} {files : List File.ProtoFile}
    (hmem : (dir, files) ∈ ps.dirPathToFiles) (hpre : ps.dirPath <+: dir) :
    ∃ ls, getLinters env ps.config.lint = .ok ls ∧ ∀ g ∈ files,
      about (nameIn abs g) fs =
        Text.sortFailures (about (nameIn abs g) (saysOf host ps abs ls (dir, files))) := by
  obtain ⟨ls, hl, hok, rfl⟩ := (run_dirs_iff hs).1 h
  refine ⟨ls, hl, fun g hg => ?_⟩
  have hin : (dir, files) ∈ ps.dirPathToFiles.filter fun p => Str.hasPrefix p.1 ps.dirPath :=
    List.mem_filter.2 ⟨hmem, List.isPrefixOf_iff_prefix.2 hpre⟩
  apply C18_unique
  · rw [List.perm_iff_count]
    intro f
    unfold about
    by_cases hf : f.filename = nameIn abs g
    · rw [List.count_filter (by simpa using hf), List.count_filter (by simpa using hf),
        (C18_sorted _).1.count_eq]
      refine count_only f hin ?_ ?_
      · exact (List.Pairwise.of_map _ (fun _ _ h e => h (congrArg _ e)) hown.1).filter _
      · intro p hp hne
        rw [List.count_eq_zero]
        intro hfp
        obtain ⟨_, g', hg', e⟩ := says_lands hs hl (List.mem_filter.1 hp).1 (hok p hp).1 (hok p hp).2 f hfp
        exact hne (own_dir hown (List.mem_filter.1 hp).1 hmem hg' hg (e.symm.trans hf))
    · rw [List.count_eq_zero.2 fun hx => hf (by simpa using (List.mem_filter.1 hx).2),
        List.count_eq_zero.2 fun hx => hf (by simpa using (List.mem_filter.1 hx).2)]
  · exact List.Pairwise.filter _ (C18_sorted _).2

theorem kept_congr {host host' : Host} (h : host'.abs = host.abs) (configDir : Str)
    (ign : GoMap Str (List Str)) (rule name : Str) :
    kept host' configDir ign rule name = kept host configDir ign rule name := by
  unfold kept IgnoredFor LiesAt
  rw [h]

theorem parsedOf_host {host host' : Host} {ps ps' : File.ProtoSet} {abs : Bool}
    (hc : ps'.config = ps.config) {files : List File.ProtoFile}
    (hparse : ∀ g ∈ files, host'.parse g.path (nameIn abs g) = host.parse g.path (nameIn abs g)) :
    parsedOf host' ps' abs files = parsedOf host ps abs files := by
  have : descriptorsOf host' ps' abs files = descriptorsOf host ps abs files := by
    induction files with
    | nil => rfl
    | cons f fs ih =>
      unfold descriptorsOf
      have hx := hparse f List.mem_cons_self
      have : descriptorOf host' ps' abs f = descriptorOf host ps abs f := by
        unfold descriptorOf
        rw [hc]
        show (match host'.parse f.path (nameIn abs f) with | .error e => _ | .ok (elements, data) => _) = _
        rw [hx]
        rfl
      rw [this, ih fun g hg => hparse g (List.mem_cons_of_mem _ hg)]
  unfold parsedOf
  rw [this]

theorem saysOf_host {host host' : Host} {ps ps' : File.ProtoSet} {abs : Bool}
    (habs : host'.abs = host.abs) (hc : ps'.config = ps.config) {ls : List Linter} {dir : Str}
    {files : List File.ProtoFile}
    (hparse : ∀ g ∈ files, host'.parse g.path (nameIn abs g) = host.parse g.path (nameIn abs g)) :
    saysOf host' ps' abs ls (dir, files) = saysOf host ps abs ls (dir, files) := by
  unfold saysOf
  dsimp only
  rw [parsedOf_host hc hparse, hc]
  simp only [kept_congr habs]

/-- The rules that look at single files, on one file. -/
noncomputable def saysAlone (host : Host) (ps : File.ProtoSet) (abs : Bool) (ls : List Linter)
    (dir : Str) (g : File.ProtoFile) : List Text.Failure :=
  (saysOf host ps abs ls (dir, [g])).filter fun f => decide (f.lintID ∉ directoryRules)

theorem filter_flatMap' {α β : Type} (q : β → Bool) (F : α → List β) (xs : List α) :
    (xs.flatMap F).filter q = xs.flatMap fun x => (F x).filter q := by
  induction xs with
  | nil => rfl
  | cons x xs ih => rw [List.flatMap_cons, List.filter_append, ih, List.flatMap_cons]

theorem flatMap_only {β : Type} {ds : List FileDescriptor} {G : FileDescriptor → List β} {name : Str}
    {key : β → Str} (h : ∀ d ∈ ds, ∀ f ∈ G d, key f = d.filename) :
    (ds.flatMap G).filter (fun f => decide (key f = name)) =
      (ds.filter fun d => d.filename == name).flatMap G := by
  induction ds with
  | nil => rfl
  | cons d ds ih =>
    rw [List.flatMap_cons, List.filter_append, ih fun d hd => h d (List.mem_cons_of_mem _ hd),
      List.filter_cons]
    by_cases e : d.filename = name
    · rw [if_pos (by simpa using e), List.flatMap_cons, List.filter_eq_self.2]
      intro f hf
      simp [h d List.mem_cons_self f hf, e]
    · rw [if_neg (by simpa using e), List.filter_eq_nil_iff.2]
      · rfl
      · intro f hf hx
        have hx : key f = name := by simpa using hx
        exact e ((h d List.mem_cons_self f hf).symm.trans hx)

/-- What the rules for single files say about a file, they say of the file alone. -/
theorem says_alone {env : Env} {host : Host} {ps : File.ProtoSet} {abs : Bool}
    (hs : Sound host ps abs) (hown : OwnNames ps abs) {ls : List Linter}
    (hl : getLinters env ps.config.lint = .ok ls)
    {p : Str × List File.ProtoFile} (hp : p ∈ ps.dirPathToFiles)
    (hparse : descriptorsOf host ps abs p.2 = .ok (parsedOf host ps abs p.2))
    (hok : GoesOf host ps abs ls p) {g : File.ProtoFile} (hg : g ∈ p.2) :
    (about (nameIn abs g) (saysOf host ps abs ls p)).filter (fun f => decide (f.lintID ∉ directoryRules)) =
      saysAlone host ps abs ls p.1 g := by
  have hgood := parsed_of hs hp hparse
  have halone : parsedOf host ps abs [g] =
      (parsedOf host ps abs p.2).filter fun d => d.filename == nameIn abs g := by
    have := descriptorsOf_filter (ps' := ps) (fun n => n == nameIn abs g) rfl hparse
    rw [own_file hown hp hg] at this
    unfold parsedOf at this ⊢
    rw [this]
  unfold saysAlone about saysOf
  rw [filter_flatMap', filter_flatMap', filter_flatMap']
  refine flatMap_congr' fun l hlm => ?_
  obtain ⟨hall, _⟩ := linters_all hl l hlm
  obtain ⟨fs, hfs⟩ := hok l hlm
  dsimp only
  rw [hfs]
  rw [halone]
  have hcomm : ((parsedOf host ps abs p.2).filter fun d => d.filename == nameIn abs g).filter
        (fun d => kept host ps.config.dirPath ps.config.lint.ignoreIDToFilePaths l.id d.filename) =
      ((parsedOf host ps abs p.2).filter fun d =>
        kept host ps.config.dirPath ps.config.lint.ignoreIDToFilePaths l.id d.filename).filter
          fun d => d.filename == nameIn abs g := by
    rw [List.filter_filter, List.filter_filter]
    congr 1
    funext d
    exact Bool.and_comm _ _
  rw [hcomm]
  have hfilter : ∀ d ∈ (parsedOf host ps abs p.2).filter fun d =>
      kept host ps.config.dirPath ps.config.lint.ignoreIDToFilePaths l.id d.filename, Parsed d :=
    fun d hd => hgood d (List.mem_filter.1 hd).1
  generalize ((parsedOf host ps abs p.2).filter fun d =>
      kept host ps.config.dirPath ps.config.lint.ignoreIDToFilePaths l.id d.filename) = ds at *
  rcases rule_cases env l hall with ⟨_, h⟩ | h
  · obtain ⟨G, h1, h2, h3⟩ := h p.1 ds fs hfilter hfs
    rw [h3]
    show List.filter _ (List.filter _ fs) = List.filter _ _
    rw [h1, flatMap_only (key := fun f : Text.Failure => f.filename) fun d hd f hf => (h2 d hd f hf).1]
    rfl
  · obtain ⟨fs', h1, h2⟩ := h.lands p.1 ds hfilter
    rw [hfs] at h1; cases h1
    obtain ⟨fs', h1, h3⟩ := h.lands p.1 (ds.filter fun d => d.filename == nameIn abs g)
      fun d hd => hfilter d (List.mem_filter.1 hd).1
    rw [h1]
    have hdir := h.directory
    show List.filter _ (List.filter _ fs) = List.filter _ fs'
    rw [List.filter_eq_nil_iff.2, List.filter_eq_nil_iff.2]
    · intro f hf hx
      have : f.lintID ∉ directoryRules := by simpa using hx
      exact this ((h3 f hf).1 ▸ hdir)
    · intro f hf hx
      have : f.lintID ∉ directoryRules := by simpa using hx
      exact this ((h2 f (List.mem_filter.1 hf).1).1 ▸ hdir)

/-- What a run says about a file under the rules for single files depends on that file only. -/
theorem run_alone_eq {env : Env} {host : Host} {ps : File.ProtoSet} {abs : Bool}
    (hs : Sound host ps abs) (hown : OwnNames ps abs) {fs : List Text.Failure}
    (h : run env host ps abs = some (.ok fs)) {dir : Str} {files : List File.ProtoFile}
    (hmem : (dir, files) ∈ ps.dirPathToFiles) (hpre : ps.dirPath <+: dir) :
    ∃ ls, getLinters env ps.config.lint = .ok ls ∧ ∀ g ∈ files,
      (about (nameIn abs g) fs).filter (fun f => decide (f.lintID ∉ directoryRules)) =
        Text.sortFailures (saysAlone host ps abs ls dir g) := by
  obtain ⟨ls, hl, he⟩ := run_about_eq hs hown h hmem hpre
  obtain ⟨ls', hl', hok, rfl⟩ := (run_dirs_iff hs).1 h
  rw [hl] at hl'; cases hl'
  refine ⟨ls, hl, fun g hg => ?_⟩
  have hin : (dir, files) ∈ ps.dirPathToFiles.filter fun p => Str.hasPrefix p.1 ps.dirPath :=
    List.mem_filter.2 ⟨hmem, List.isPrefixOf_iff_prefix.2 hpre⟩
  obtain ⟨h1, h2⟩ := hok _ hin
  rw [he g hg, ← says_alone hs hown hl hmem h1 h2 hg]
  apply C18_unique
  · exact ((C18_sorted _).1).filter _
  · exact List.Pairwise.filter _ (C18_sorted _).2

end Verif.Lint

namespace Verif.File

open Verif Settings Spec

/-- Under the same configuration the same files are found, whatever directory was asked for. -/
theorem same_configuration {c : Provider} {o : Order} {w d e : Str} (hwd : IsAbsPath c.wd) (hw : w ≠ [])
    (hd : d ≠ []) (he : e ≠ []) {ps ps' : ProtoSet} (h : getForDirOf c o w d = .ok ps)
    (h' : getForDirOf c o w e = .ok ps')
    (hsame : SameConfiguration c (absClean c.wd d) (absClean c.wd e)) :
    ps' = { ps with dirPath := absClean c.wd e } := by
  obtain ⟨r, fs, b, h1, h2, h3, _, rfl⟩ := getForDirOf_iff.1 h
  obtain ⟨r', fs', b', h1', h2', h3', _, rfl⟩ := getForDirOf_iff.1 h'
  have hda := absClean_isAbsPath hwd hd
  have hea := absClean_isAbsPath hwd he
  have hwa := absClean_isAbsPath hwd hw
  obtain ⟨_, s1, s2⟩ := walkRoot_spec hwa hda h1
  obtain ⟨_, s1', s2'⟩ := walkRoot_spec hwa hea h1'
  have hr : r' = r := by
    rcases hsame with e | hc | ⟨root, n1, n2⟩
    · rw [← e, h1] at h1'; cases h1'; rfl
    · rw [s1 hc, s1' hc]
    · by_cases hc : c.configData = []
      · have g1 : r = root := by
          rcases s2 hc with n | ⟨_, n⟩
          · exact nearest_unique n n1
          · obtain ⟨p, hp⟩ := n1.2.1
            exact absurd hp (n root n1.1 p)
        have g2 : r' = root := by
          rcases s2' hc with n | ⟨_, n⟩
          · exact nearest_unique n n2
          · obtain ⟨p, hp⟩ := n2.2.1
            exact absurd hp (n root n2.1 p)
        rw [g1, g2]
      · rw [s1 hc, s1' hc]
  subst hr
  rw [h2] at h2'
  cases h2'
  rw [h3] at h3'
  cases h3'
  rfl

/-- The files are listed under their directories. -/
theorem listed_dirs {c : Provider} {o : Order} {w d : Str} {ps : ProtoSet}
    (h : getForDirOf c o w d = .ok ps) :
    ∀ p ∈ ps.dirPathToFiles, ∀ f ∈ p.2, Path.dir f.path = p.1 := by
  obtain ⟨r, fs, b, _, _, _, hv, rfl⟩ := getForDirOf_iff.1 h
  intro p hp
  have := hv p hp
  clear hv
  dsimp only at *
  generalize p.2 = files at *
  induction files with
  | nil => exact fun _ h => nomatch h
  | cons f files ih =>
    rw [validateFiles] at this
    by_cases hx : Path.dir f.path ≠ p.1
    · rw [if_pos hx] at this; cases this
    · rw [if_neg hx] at this
      refine List.forall_mem_cons.2 ⟨Classical.not_not.1 hx, ?_⟩
      cases hr : validateIsRel b.2.dirPath f.path with
      | error e => rw [hr] at this; cases this
      | ok _ => rw [hr] at this; exact ih this

end Verif.File
