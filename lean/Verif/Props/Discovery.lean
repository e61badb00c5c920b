import Verif.Proof.Walk
import Verif.Proof.WalkTimeout
import Verif.Proof.Settings

/-!
# Finding configuration and proto files: C19 to C22 and C54
-/

namespace Verif.Props

open Verif Str Path Spec Settings File

/-! ## C19 -/

/-- C19: for an absolute directory the search ends; it returns a file exactly when the
nearest directory with a configuration file has that one only, nothing exactly when no
directory up to the root has one, and an error exactly when the nearest one has two. -/
theorem C19_nearest (h : Host) (dirPath : Str) (ha : isAbs dirPath = true) :
    ∃ r, getFilePathForDirOf h dirPath = some r ∧
      (∀ p, p ≠ [] → (r = .ok p ↔ ∃ d, NearestConfig h.stat (clean dirPath) d ∧
        ConfigFile h.stat d p ∧ ∀ q, ConfigFile h.stat d q → q = p)) ∧
      (r = .ok [] ↔ ∀ d, Within (clean dirPath) d → NoConfig h.stat d) ∧
      ((∃ e, r = .error e) ↔ ∃ d p q, NearestConfig h.stat (clean dirPath) d ∧
        ConfigFile h.stat d p ∧ ConfigFile h.stat d q ∧ p ≠ q) := by
  obtain ⟨r, hr, ho⟩ := getFilePathForDirOf_outcome h ha
  refine ⟨r, hr, ?_⟩
  rcases ho with ⟨p, d, rfl, hne, hn, hp, hq⟩ | ⟨rfl, hn⟩ | ⟨e, d, p, q, rfl, hn, hp, hq, hpq⟩
  · refine ⟨fun p' hp' => ⟨fun h => ?_, ?_⟩, ⟨fun h => ?_, fun h => ?_⟩, ⟨?_, ?_⟩⟩
    · injection h with h; subst h; exact ⟨d, hn, hp, hq⟩
    · rintro ⟨d', hn', hp'', _⟩
      rw [nearest_unique hn' hn] at hp''
      rw [hq p' hp'']
    · injection h with h; exact absurd h hne
    · exact absurd hp (h d hn.1 p)
    · rintro ⟨e, h⟩; cases h
    · rintro ⟨d', p', q', hn', hp', hq', hpq⟩
      rw [nearest_unique hn' hn] at hp' hq'
      exact absurd ((hq p' hp').trans (hq q' hq').symm) hpq
  · refine ⟨fun p' hp' => ⟨fun h => ?_, ?_⟩, ⟨fun h => hn, fun h => rfl⟩, ⟨?_, ?_⟩⟩
    · injection h with h; exact absurd h.symm hp'
    · rintro ⟨d', hn', hp'', _⟩
      exact absurd hp'' (hn d' hn'.1 p')
    · rintro ⟨e, h⟩; cases h
    · rintro ⟨d', p', q', hn', hp', _⟩
      exact absurd hp' (hn d' hn'.1 p')
  · refine ⟨fun p' hp' => ⟨fun h => (by cases h), ?_⟩, ⟨fun h => (by cases h), fun h => ?_⟩,
      ⟨fun _ => ⟨d, p, q, hn, hp, hq, hpq⟩, fun _ => ⟨e, rfl⟩⟩⟩
    · rintro ⟨d', hn', _, hu⟩
      rw [nearest_unique hn' hn] at hu
      exact absurd ((hu p hp).trans (hu q hq).symm) hpq
    · exact absurd hp (h d hn.1 p)

/-- C19: a relative directory is an error. -/
theorem C19_relative (h : Host) (dirPath : Str) (ha : isAbs dirPath = false) :
    ∃ e, getFilePathForDirOf h dirPath = some (.error e) := by
  unfold getFilePathForDirOf
  rw [ha]
  exact ⟨_, rfl⟩

/-- A host with the given files. -/
def hostWith (files : List Str) : Host :=
  ⟨fun p => decide (p ∈ files), fun _ => .error [], fun _ => .error []⟩

/-- Non-vacuity: two configurations above a directory, the nearer one is found. -/
example : getFilePathForDirOf (hostWith [s%"/a/prototool.yaml", s%"/a/b/prototool.json"]) s%"/a/b/c/d" =
    some (.ok s%"/a/b/prototool.json") := by rfl

/-- Non-vacuity: two files in the nearest directory. -/
example : ∃ e, getFilePathForDirOf
    (hostWith [s%"/prototool.yaml", s%"/a/prototool.yaml", s%"/a/prototool.json"]) s%"/a//b/./c" =
    some (.error e) := ⟨_, rfl⟩

/-! ## C20 -/

/-- C20: a path within the configuration directory is excluded exactly when it, or a
directory above it that is below the configuration directory, is an exclude path; the
test ends for all absolute paths. -/
theorem C20_components (f d : Str) (hw : Within f d) (excludes : List Str) :
    ∃ b, isExcluded f d excludes = some b ∧ (b = true ↔ ∃ e ∈ excludes, Within f e ∧ Below e d) := by
  obtain ⟨hf, hd⟩ := within_isAbsPath hw
  obtain ⟨b, hb⟩ := isExcluded_terminates hf hd excludes
  refine ⟨b, hb, ?_⟩
  have := isExcluded_iff hw excludes
  rw [hb, Option.some.injEq] at this
  exact this

/-- C20: outside the configuration directory every exclude path but the root counts. -/
theorem C20_outside (f d : Str) (hf : IsAbsPath f) (hd : IsAbsPath d) (hw : ¬ Within f d)
    (excludes : List Str) :
    isExcluded f d excludes = some true ↔ ∃ e ∈ excludes, Within f e ∧ e ≠ s%"/" := by
  rw [isExcluded_outside hf hd hw]
  constructor
  · rintro ⟨e, he, h1, h2⟩
    refine ⟨e, he, h1, fun e' => ?_⟩
    obtain ⟨a, b, hab, hne, e1, e2⟩ := h2
    have ha : a = [] := (absPath_root (components_append.1 hab).1).1 e1.symm
    rw [ha] at e2 hab
    rw [e'] at e2
    exact hne ((absPath_root hab).1 e2.symm)
  · rintro ⟨e, he, h1, h2⟩
    refine ⟨e, he, h1, ?_⟩
    obtain ⟨_, es, hes, rfl⟩ := within_isAbsPath h1
    exact ⟨[], es, hes, fun e' => h2 (by rw [e']; rfl), rfl, rfl⟩

/-- C20: an exclude path never excludes something whose name merely begins the same. -/
theorem C20_no_partial_names (cs ds : List Str) (name longer : Str) (hne : name ≠ longer)
    (hc : Components (cs ++ name :: [])) (hl : Components (cs ++ longer :: ds)) (d : Str)
    (hw : Within (absPath (cs ++ longer :: ds)) d) :
    isExcluded (absPath (cs ++ longer :: ds)) d [absPath (cs ++ [name])] = some false := by
  obtain ⟨b, hb, hiff⟩ := C20_components _ d hw [absPath (cs ++ [name])]
  rw [hb]
  cases b with
  | false => rfl
  | true =>
    obtain ⟨e, he, h1, _⟩ := hiff.1 rfl
    rw [List.mem_singleton] at he
    subst he
    rw [within_iff hl hc, List.prefix_append_right_inj] at h1
    obtain ⟨t, ht⟩ := h1
    injection ht with h1 _
    exact absurd h1 hne

/-- Non-vacuity: `foo/bar` does not exclude `foo/barbaz` but excludes what is below it. -/
example : isExcluded s%"/r/foo/barbaz/a.proto" s%"/r" [s%"/r/foo/bar"] = some false ∧
    isExcluded s%"/r/foo/bar/x/a.proto" s%"/r" [s%"/q", s%"/r/foo/bar"] = some true := ⟨rfl, rfl⟩

theorem excludedBy_dot (d e : Str) (hd : d ≠ s%".") (he : e ≠ s%".") (n : Nat) :
    excludedBy d e n s%"." = none := by
  induction n with
  | zero => rfl
  | succ n ih =>
    rw [excludedBy, if_pos ⟨fun h => hd h.symm, by decide⟩, if_neg (fun h => he h.symm)]
    exact ih

/-- C20: the test is only defined for absolute paths; for a relative path such as `a.proto`
the loop does not end, however many iterations are allowed. -/
theorem C20_relative_diverges (n : Nat) : isExcludedGo n s%"a.proto" s%"/r" [s%"/r/b"] = none := by
  have h : excludedBy s%"/r" s%"/r/b" n s%"a.proto" = none := by
    cases n with
    | zero => rfl
    | succ n =>
      rw [excludedBy, if_pos ⟨by decide, by decide⟩, if_neg (by decide)]
      exact excludedBy_dot _ _ (by decide) (by decide) n
  rw [isExcludedGo, h]

/-! ## C21 -/

/-- C21: a walk that succeeds returns exactly the `.proto` files of the tree that are not
excluded, each once. -/
theorem C21_walk (c : WalkConfig) (D : List Str) (root : Node)
    (hbelow : c.hasConfigData = false → ExcludesBelow c.excludesForDir)
    (hdata : c.hasConfigData = false → D = []) (hroot : IsAbsPath c.absDirPath) (ht : TreeOK root)
    (fs : List ProtoFile) (h : walkAll c root D = .ok fs) :
    (fs.map (·.path)).Nodup ∧
    ∀ p, (∃ f ∈ fs, f.path = p) ↔ ProtoFileIn c.absDirPath root p ∧ ¬ ExcludedIn c D p := by
  obtain ⟨h1, _, h2⟩ := walkAll_spec hbelow hdata hroot ht h
  refine ⟨h1, fun p => ?_⟩
  rw [← h2, List.mem_map]

/-- C21: the walk of a readable tree with valid configurations succeeds. -/
theorem C21_walk_succeeds (c : WalkConfig) (D : List Str) (root : Node)
    (hbelow : c.hasConfigData = false → ExcludesBelow c.excludesForDir)
    (hdata : c.hasConfigData = false → D = []) (hroot : IsAbsPath c.absDirPath) (ht : TreeOK root)
    (hr : Readable root)
    (hok : c.hasConfigData = false → ∀ d, Within d c.absDirPath → ∃ es, c.excludesForDir d = .ok es) :
    ∃ fs, walkAll c root D = .ok fs := walkAll_ok hbelow hdata hroot ht hr hok

/-- C21: discovery for a directory walks the directory of the nearest configuration (the
directory itself if there is none, the working directory if the configuration is given as
data) and returns, for every directory, exactly the `.proto` files in it that are not
excluded, each once, whatever the order of iterating over maps. -/
theorem C21_discovery (c : Provider) (o : Order) (w d : Str) (hwd : IsAbsPath c.wd) (hw : w ≠ []) (hd : d ≠ [])
    (ht : ∀ p, TreeOK (c.tree p)) (hbelow : c.configData = [] → ExcludesBelow (getExcludePrefixesForDir c.host))
    (ps : ProtoSet) (h : getForDirOf c o w d = .ok ps) :
    ∃ root D,
      (c.configData ≠ [] → root = ps.workDirPath ∧
        getExcludePrefixesForData c.host ps.workDirPath c.configData = .ok D) ∧
      (c.configData = [] → D = [] ∧ (NearestConfig c.host.stat ps.dirPath root ∨
        (root = ps.dirPath ∧ ∀ dd, Within ps.dirPath dd → NoConfig c.host.stat dd))) ∧
      (∀ dir p, (∃ fs f, GoMap.get? ps.dirPathToFiles dir = some fs ∧ f ∈ fs ∧ f.path = p) ↔
        EntryOf p dir ∧ ProtoFileIn root (c.tree root) p ∧
          ¬ ExcludedIn (walkConfig c ps.workDirPath root) D p) ∧
      (∀ dir fs, GoMap.get? ps.dirPathToFiles dir = some fs → fs ≠ [] ∧ (fs.map (·.path)).Nodup) ∧
      (ps.dirPathToFiles.map (·.1)).Nodup := by
  obtain ⟨root, D, fs, b, h1, h2, h3, h4, rfl⟩ := getForDirOf_stages h
  have hwa := absClean_isAbsPath hwd hw
  have hda := absClean_isAbsPath hwd hd
  obtain ⟨hra, hr1, hr2⟩ := walkRoot_spec hwa hda h1
  have hD : c.configData = [] → D = [] := by
    intro e
    unfold dataExcludes at h2
    rw [if_neg (by simp [e])] at h2
    injection h2 with h2; exact h2.symm
  have hb0 : (walkConfig c (absClean c.wd w) root).hasConfigData = false → c.configData = [] := by
    intro hx
    simpa [walkConfig] using hx
  obtain ⟨hn, _, hmem⟩ := walkAll_spec (c := walkConfig c (absClean c.wd w) root)
    (fun hx => hbelow (hb0 hx)) (fun hx => hD (hb0 hx)) hra (ht root) h3
  obtain ⟨hbn, hget, _⟩ := getBaseProtoSets_single (group_nodup fs) h4
  have hfilter : ∀ dir fs', GoMap.get? b.1 dir = some fs' ↔
      fs' = fs.filter (fun f => Path.dir f.path = dir) ∧ fs' ≠ [] := by
    intro dir fs'
    rw [hget, group_get?]
    split
    · rename_i he
      constructor
      · intro hx; cases hx
      · rintro ⟨e1, e2⟩; rw [he] at e1; exact absurd e1 e2
    · rename_i he
      constructor
      · intro hx; injection hx with hx; subst hx; exact ⟨rfl, he⟩
      · rintro ⟨e1, _⟩; rw [e1]
  have hentry : ∀ dir p, ProtoFileIn root (c.tree root) p → (Path.dir p = dir ↔ EntryOf p dir) := by
    rintro dir p ⟨rs, ds, q, hrs, e, hp, hnode, hq⟩
    have hcomp : Components (rs ++ ds) := components_append.2 ⟨hrs, nodeAt_components (ht root) hnode⟩
    have hne : rs ++ ds ≠ [] := by
      intro hx
      rw [hx] at hp
      rw [hq] at hp
      have := congrArg List.length hp
      simp [absPath] at this
    generalize rs ++ ds = cs at *
    rw [← List.dropLast_concat_getLast hne] at hcomp hp
    rw [hp, dir_snoc hcomp]
    constructor
    · rintro rfl
      exact ⟨_, _, hcomp, rfl, rfl⟩
    · rintro ⟨cs', c', hc', rfl, e2⟩
      have := absPath_inj hcomp hc' e2
      have := List.append_inj' this rfl
      rw [this.1]
  refine ⟨root, D, fun hx => ⟨hr1 hx, ?_⟩, fun hx => ⟨hD hx, hr2 hx⟩, ?_, ?_, hbn⟩
  · unfold dataExcludes at h2
    rw [if_pos hx] at h2
    exact h2
  · intro dir p
    constructor
    · rintro ⟨fs', f, hg, hf, rfl⟩
      obtain ⟨rfl, _⟩ := (hfilter dir fs').1 hg
      rw [List.mem_filter] at hf
      have hp := (hmem f.path).1 (List.mem_map.2 ⟨f, hf.1, rfl⟩)
      exact ⟨(hentry dir f.path hp.1).1 (by simpa using hf.2), hp⟩
    · rintro ⟨he, hp⟩
      obtain ⟨f, hf, rfl⟩ := List.mem_map.1 ((hmem p).2 hp)
      have hm : f ∈ fs.filter (fun f => Path.dir f.path = dir) :=
        List.mem_filter.2 ⟨hf, by simpa using (hentry dir f.path hp.1).2 he⟩
      exact ⟨_, f, (hfilter dir _).2 ⟨rfl, List.ne_nil_of_mem hm⟩, hm, rfl⟩
  · intro dir fs' hg
    obtain ⟨rfl, hne⟩ := (hfilter dir fs').1 hg
    exact ⟨hne, hn.sublist (List.filter_sublist.map _)⟩

/-- C21: the hypothesis on excludes holds if every configuration has only relative
excludes that do not go up. -/
theorem C21_excludes_below (h : Host)
    (hplain : ∀ filePath e, getExternalConfig h filePath = .ok e →
      ∀ x ∈ e.excludes, x ≠ [] → isAbs x = false ∧ s%".." ∉ splitChar '/' x) :
    ExcludesBelow (getExcludePrefixesForDir h) := by
  intro d es e hd hes he
  unfold getExcludePrefixesForDir at hes
  rw [isAbs_of_isAbsPath hd, clean_of_isAbsPath hd] at hes
  simp only [Bool.not_true, Bool.false_eq_true, if_false] at hes
  split at hes
  · cases hes
  · split at hes
    · injection hes with hes; subst hes; cases he
    · split at hes
      · cases hes
      · rename_i x hx
        exact excludesBelow_getExcludePrefixes hd (hplain _ _ hx) hes e he

/-- A provider for the examples: a configuration in `/w` excludes `b`. -/
def exProvider : Provider :=
  { host :=
      { stat := fun p => decide (p = s%"/w/prototool.yaml")
        readFile := fun p => if p = s%"/w/prototool.yaml" then .ok p else .error []
        parseYAML := fun _ => .ok { excludes := [s%"b"] } }
    sort := SortSlice.stable
    develMode := false
    configData := []
    wd := s%"/w/a"
    tree := fun _ => .dir [(s%"a", .dir [(s%"x.proto", .file), (s%"x.txt", .file), (s%"z.proto", .file)]),
      (s%"b", .dir [(s%"y.proto", .file)]), (s%"b.proto", .file), (s%"prototool.yaml", .file)] }

/-- Non-vacuity: discovery in that tree. -/
example : ∃ ps, getForDirOf exProvider Order.rev s%"." s%"." = .ok ps ∧
    ps.dirPathToFiles.map (fun x => (x.1, x.2.map (·.path))) =
      [(s%"/w", [s%"/w/b.proto"]), (s%"/w/a", [s%"/w/a/x.proto", s%"/w/a/z.proto"])] := ⟨_, rfl, rfl⟩

theorem exProvider_below : ExcludesBelow (getExcludePrefixesForDir exProvider.host) := by
  apply C21_excludes_below
  intro f e h x hx _
  have : e.excludes = [s%"b"] ∨ e.excludes = [] := by
    unfold getExternalConfig at h
    simp only [exProvider] at h
    by_cases hf : f = s%"/w/prototool.yaml"
    · subst hf
      injection h with h; subst h; exact Or.inl rfl
    · rw [if_neg hf] at h; cases h
  rcases this with e | e
  · rw [e] at hx
    rw [List.mem_singleton] at hx
    subst hx
    decide
  · rw [e] at hx; cases hx

/-! ## C54 -/

/-- C54: every directory of the returned set is governed by the configuration of the set:
the one in the nearest directory that has one, or the configuration of the working
directory if there is none. -/
theorem C54_own_configuration (c : Provider) (o : Order) (w d : Str) (hwd : IsAbsPath c.wd) (hw : w ≠ []) (hd : d ≠ [])
    (ht : ∀ p, TreeOK (c.tree p)) (hc : c.configData = [])
    (hbelow : ExcludesBelow (getExcludePrefixesForDir c.host))
    (ps : ProtoSet) (h : getForDirOf c o w d = .ok ps) (dir : Str) (fs : List ProtoFile)
    (hg : GoMap.get? ps.dirPathToFiles dir = some fs) :
    (∃ dd p, NearestConfig c.host.stat dir dd ∧ ConfigFile c.host.stat dd p ∧
      getConfig c.sort c.host c.develMode p = .ok ps.config ∧ ps.config.dirPath = dd) ∨
    ((∀ dd, Within dir dd → NoConfig c.host.stat dd) ∧
      getForDir c.sort c.host c.develMode ps.workDirPath = some (.ok ps.config)) := by
  have hdir : IsAbsPath dir := by
    obtain ⟨root, D, _, _, h3, h4, _⟩ := C21_discovery c o w d hwd hw hd ht (fun _ => hbelow) ps h
    obtain ⟨hne, _⟩ := h4 dir fs hg
    obtain ⟨f, hf⟩ := List.exists_mem_of_ne_nil _ hne
    obtain ⟨⟨cs, x, hcx, rfl, _⟩, _⟩ := (h3 dir f.path).1 ⟨fs, f, hg, hf, rfl⟩
    exact ⟨cs, (components_append.1 hcx).1, rfl⟩
  obtain ⟨root, D, fs', b, h1, h2, h3, h4, rfl⟩ := getForDirOf_stages h
  obtain ⟨_, _, hcfg⟩ := getBaseProtoSets_single (group_nodup fs') h4
  obtain ⟨k, hk⟩ := hcfg dir fs hg
  rcases configFor_nearest hc hdir hk with ⟨dd, hn, hp, hcf⟩ | hx
  · refine Or.inl ⟨dd, k, hn, hp, hcf, ?_⟩
    obtain ⟨cs, name, hcs, hname, rfl, rfl, _⟩ := hp
    have hcomp : Components (cs ++ [name]) := by
      rcases hname with rfl | rfl
      · exact components_snoc hcs component_yaml
      · exact components_snoc hcs component_json
    unfold getConfig at hcf
    rw [isAbs_absPath, clean_absPath hcomp, dir_snoc hcomp] at hcf
    simp only [Bool.not_true, Bool.false_eq_true, if_false] at hcf
    split at hcf
    · cases hcf
    · rename_i e _
      rcases externalConfigToConfig_spec c.sort c.host c.develMode e ⟨cs, hcs, rfl⟩ with
        ⟨_, _, _, _, _, hx⟩ | ⟨_, err, hx⟩
      · rw [hx] at hcf
        injection hcf with hcf
        show b.2.dirPath = _
        rw [← hcf]; rfl
      · rw [hx] at hcf; cases hcf
  · exact Or.inr hx

/-! ## C22 -/

/-- C22: whatever the interleaving of the walk, the timer and the waiting goroutine, the
result is that of the complete walk or an error; without a timeout it is that of the
complete walk. -/
theorem C22_no_partial_result (c : WalkConfig) (hasTimeout : Bool) (root : Node) (excludes : List Str)
    (m : Machine) (h : Reachable c hasTimeout root excludes m) (r : Except Err (List ProtoFile))
    (hr : m.waiter = .returned r) :
    r = walkAll c root excludes ∨ (hasTimeout = true ∧ ∃ e, r = .error e) :=
  (machineInv h).returned r hr

/-- C22: until the result is returned there is always a step to take, so that the two
goroutines never block each other. -/
theorem C22_no_deadlock (c : WalkConfig) (hasTimeout : Bool) (root : Node) (excludes : List Str)
    (m : Machine) (h : Reachable c hasTimeout root excludes m) (hr : ∀ r, m.waiter ≠ .returned r) :
    ∃ m', Step c hasTimeout m m' := progress h hr

/-- C22: there is no infinite execution. -/
theorem C22_terminates (c : WalkConfig) (hasTimeout : Bool) (f : Nat → Machine) :
    ¬ ∀ n, Step c hasTimeout (f n) (f (n + 1)) := by
  intro h
  have : ∀ n, (f n).walker.measure + (f n).waiter.measure + n ≤ (f 0).walker.measure + (f 0).waiter.measure := by
    intro n
    induction n with
    | zero => exact Nat.le_refl _
    | succ n ih =>
      have := step_measure (h n)
      omega
  have := this ((f 0).walker.measure + (f 0).waiter.measure + 1)
  omega

/-- C22: when the result has been returned, the walking goroutine has ended too. -/
theorem C22_no_leak (c : WalkConfig) (hasTimeout : Bool) (root : Node) (excludes : List Str)
    (m : Machine) (h : Reachable c hasTimeout root excludes m) (r : Except Err (List ProtoFile))
    (hr : m.waiter = .returned r) : m.walker = .done := (machineInv h).done.2 ⟨r, hr⟩

/-- Settings for the example. -/
def exWalk : WalkConfig := ⟨false, fun _ => .ok [], s%"/w", s%"/w"⟩

/-- A tree for the example. -/
def exTree : Node := .dir [(s%"x.proto", .file), (s%"y.proto", .file)]

/-- Non-vacuity: an execution where the timer fires in the middle of the walk returns
an error although a file had been found. -/
example : ∃ m, Reachable exWalk true exTree [] m ∧ m.waiter = .returned (.error timedOutError) := by
  refine ⟨_, .step (.step (.step (.step (.step (.step .init (.visit rfl)) (.visit rfl)) (.timer rfl)) .setTimedOut)
    (.fail (e := timedOutError) rfl)) .receiveLate, rfl⟩

/-- Non-vacuity: an execution where the walk is complete before the timer. -/
example : ∃ m, Reachable exWalk true exTree [] m ∧ m.waiter = .returned (walkAll exWalk exTree []) := by
  refine ⟨_, .step (.step (.step (.step (.step .init (.visit rfl)) (.visit rfl)) (.visit rfl)) .finish) .receive, rfl⟩

end Verif.Props
