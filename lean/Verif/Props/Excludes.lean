import Verif.Spec.Excludes
import Verif.Props.Discovery
import Verif.Proof.WalkOrder
import Verif.Props.Scope
import Verif.Props.RuleChange

/-!
# C113: an exclude takes out the files below it and nothing else
-/

namespace Verif.Props

open Verif Str Path Spec Exec Settings File

section
variable {c c' : Provider} {d x : Str}

theorem _root_.Verif.Spec.AddsExclude.isAbs (add : AddsExclude c c' d x) : IsAbsPath d := by
  obtain ⟨p, cs, name, hcs, _, rfl, _⟩ := add.file
  exact ⟨cs, hcs, rfl⟩

theorem _root_.Verif.Spec.AddsExclude.below (add : AddsExclude c c' d x) : Below (locate d x) d :=
  locate_below add.isAbs add.relative add.noUp add.proper

theorem _root_.Verif.Spec.AddsExclude.single (add : AddsExclude c c' d x) (d1 : Str) :
    getSingleFilePathForDir c'.host d1 = getSingleFilePathForDir c.host d1 := by
  unfold getSingleFilePathForDir
  rw [add.stat]

theorem _root_.Verif.Spec.AddsExclude.external (add : AddsExclude c c' d x) {p : Str} (hp : ¬ ConfigFile c.host.stat d p) :
    getExternalConfig c'.host p = getExternalConfig c.host p := by
  unfold getExternalConfig
  rw [add.others p hp, add.parseYAML]

theorem configFile_dir {stat : Str → Bool} {d d' p : Str} (h : ConfigFile stat d p) (h' : ConfigFile stat d' p) :
    d = d' := by
  obtain ⟨cs, name, hcs, hname, rfl, rfl, _⟩ := h
  obtain ⟨cs', name', hcs', hname', rfl, e, _⟩ := h'
  have hn : ∀ {n : Str}, (n = s%"prototool.yaml" ∨ n = s%"prototool.json") → Component n := by
    rintro n (rfl | rfl)
    · exact component_yaml
    · exact component_json
  have := absPath_inj (components_snoc hcs (hn hname)) (components_snoc hcs' (hn hname')) e
  rw [(List.append_inj' this rfl).1]

/-- A path below a directory starts with the path of the directory and is longer. -/
theorem below_prefix {e d : Str} (h : Below e d) : ∃ t, t ≠ [] ∧ e = d ++ t := by
  obtain ⟨a, b, hab, hb, rfl, rfl⟩ := h
  cases a with
  | nil =>
    cases b with
    | nil => exact absurd rfl hb
    | cons y ys =>
      refine ⟨y ++ ys.flatMap fun c => '/' :: c, ?_, by simp [absPath]⟩
      have := (components_cons.1 hab).1.1
      intro e
      exact this (List.append_eq_nil_iff.1 e).1
  | cons z zs =>
    refine ⟨b.flatMap fun c => '/' :: c, ?_, by simp [absPath]⟩
    cases b with
    | nil => exact absurd rfl hb
    | cons y ys => simp

theorem getExcludePrefixes_more (hd : IsAbsPath d) (hb : Below (locate d x) d) (hx : x ≠ []) (l : List Str) :
    (∀ es', getExcludePrefixes (l ++ [x]) d = .ok es' → ∃ es, getExcludePrefixes l d = .ok es ∧
      ∀ e, e ∈ es' ↔ e ∈ es ∨ e = locate d x) ∧
    (∀ es, getExcludePrefixes l d = .ok es → ∃ es', getExcludePrefixes (l ++ [x]) d = .ok es') := by
  constructor
  · intro es' h
    obtain ⟨h1, rfl⟩ := (getExcludePrefixes_iff hd _ _).1 h
    refine ⟨_, (getExcludePrefixes_iff hd _ _).2 ⟨fun y hy => h1 y (List.mem_append_left _ hy), rfl⟩, fun e => ?_⟩
    simp only [List.mem_map, mem_sortUniq, List.mem_append, List.mem_singleton]
    constructor
    · rintro ⟨y, ⟨hy | rfl, hne⟩, rfl⟩
      · exact .inl ⟨y, ⟨hy, hne⟩, rfl⟩
      · exact .inr rfl
    · rintro (⟨y, ⟨hy, hne⟩, rfl⟩ | rfl)
      · exact ⟨y, ⟨.inl hy, hne⟩, rfl⟩
      · exact ⟨x, ⟨.inr rfl, hx⟩, rfl⟩
  · intro es h
    obtain ⟨h1, rfl⟩ := (getExcludePrefixes_iff hd _ _).1 h
    refine ⟨_, (getExcludePrefixes_iff hd _ _).2 ⟨fun y hy hne => ?_, rfl⟩⟩
    rcases List.mem_append.1 hy with hy | hy
    · exact h1 y hy hne
    · rw [List.mem_singleton.1 hy]
      exact below_prefix hb

/-- What the configuration of a directory excludes, before and after. -/
theorem _root_.Verif.Spec.AddsExclude.excludes (add : AddsExclude c c' d x) {d1 : Str} (hd1 : IsAbsPath d1) :
    (∀ es', getExcludePrefixesForDir c'.host d1 = .ok es' → ∃ es, getExcludePrefixesForDir c.host d1 = .ok es ∧
      ∀ e, e ∈ es' ↔ e ∈ es ∨ d1 = d ∧ e = locate d x) ∧
    (∀ es, getExcludePrefixesForDir c.host d1 = .ok es → ∃ es', getExcludePrefixesForDir c'.host d1 = .ok es') := by
  have hcl := clean_of_isAbsPath hd1
  have hia := isAbs_of_isAbsPath hd1
  obtain ⟨cs, hcs, he⟩ := hd1
  unfold getExcludePrefixesForDir
  rw [hia, hcl, add.single]
  simp only [Bool.not_true, Bool.false_eq_true, if_false]
  have hsingle := single_cases c.host hcs
  rw [← he] at hsingle
  rcases hsingle with ⟨p, hp, hne, hcf, _⟩ | ⟨hp, hno⟩ | ⟨err, p, q, hp, _⟩
  · rw [hp]
    simp only [if_neg hne]
    by_cases hdd : d1 = d
    · subst hdd
      obtain ⟨e, h1, h2, _⟩ := add.own p hcf
      rw [h1, h2]
      simp only [true_and]
      exact getExcludePrefixes_more ⟨cs, hcs, he⟩ add.below add.named e.excludes
    · rw [add.external fun h => hdd (configFile_dir hcf h)]
      refine ⟨fun es' h => ⟨es', h, fun e => ?_⟩, fun es h => ⟨es, h⟩⟩
      exact ⟨.inl, fun h => h.elim id fun h => absurd h.1 hdd⟩
  · rw [hp]
    simp only [if_true]
    refine ⟨fun es' h => ⟨es', h, fun e => ⟨.inl, fun h' => h'.elim id fun h' => ?_⟩⟩, fun es h => ⟨es, h⟩⟩
    obtain ⟨p, hp⟩ := add.file
    exact absurd hp (by rw [← h'.1]; exact hno p)
  · rw [hp]
    exact ⟨fun _ h => by (cases h), fun _ h => by (cases h)⟩

theorem _root_.Verif.Spec.AddsExclude.excludesBelow (add : AddsExclude c c' d x)
    (hb : ExcludesBelow (getExcludePrefixesForDir c.host)) : ExcludesBelow (getExcludePrefixesForDir c'.host) := by
  intro d1 es' e hd1 h he
  obtain ⟨es, h1, h2⟩ := (add.excludes hd1).1 es' h
  rcases (h2 e).1 he with he | ⟨rfl, rfl⟩
  · exact hb d1 es e hd1 h1 he
  · exact add.below

/-- What is excluded in the tree of the configuration, before and after. -/
theorem _root_.Verif.Spec.AddsExclude.excludedIn (add : AddsExclude c c' d x) (w p : Str) :
    ExcludedIn (walkConfig c' w d) [] p ↔ ExcludedIn (walkConfig c w d) [] p ∨ Within p (locate d x) := by
  have hdata : (walkConfig c w d).hasConfigData = false := by simp [walkConfig, add.data]
  have hdata' : (walkConfig c' w d).hasConfigData = false := by simp [walkConfig, add.configData, add.data]
  have hdecl : ∀ e, Declared (walkConfig c' w d) [] e ↔ Declared (walkConfig c w d) [] e ∨ e = locate d x := by
    intro e
    unfold Declared
    rw [hdata, hdata']
    simp only [Bool.false_eq_true, if_false]
    constructor
    · rintro ⟨d1, es', hw, h, he⟩
      obtain ⟨es, h1, h2⟩ := (add.excludes (within_isAbsPath hw).1).1 es' h
      rcases (h2 e).1 he with he | ⟨_, he⟩
      · exact .inl ⟨d1, es, hw, h1, he⟩
      · exact .inr he
    · rintro (⟨d1, es, hw, h, he⟩ | rfl)
      · obtain ⟨es', h'⟩ := (add.excludes (within_isAbsPath hw).1).2 es h
        obtain ⟨es2, h1, h2⟩ := (add.excludes (within_isAbsPath hw).1).1 es' h'
        have : es2 = es := by
          change getExcludePrefixesForDir c.host d1 = _ at h
          rw [h] at h1
          injection h1 with h1
          exact h1.symm
        subst this
        exact ⟨d1, es', hw, h', (h2 e).2 (.inl he)⟩
      · obtain ⟨es, h⟩ := add.valid
        obtain ⟨es', h'⟩ := (add.excludes add.isAbs).2 es h
        obtain ⟨es2, _, h2⟩ := (add.excludes add.isAbs).1 es' h'
        exact ⟨d, es', within_refl add.isAbs, h', (h2 _).2 (.inr ⟨rfl, rfl⟩)⟩
  unfold ExcludedIn
  constructor
  · rintro ⟨e, he, hw, hb⟩
    rcases (hdecl e).1 he with he | rfl
    · exact .inl ⟨e, he, hw, hb⟩
    · exact .inr hw
  · rintro (⟨e, he, hw, hb⟩ | hw)
    · exact ⟨e, (hdecl e).2 (.inl he), hw, hb⟩
    · exact ⟨_, (hdecl _).2 (.inr rfl), hw, add.below⟩

end

/-- Which walk found the files of a set. -/
theorem listed_walk {c : Provider} {o : Order} {w a : Str} (hwd : IsAbsPath c.wd) (hw : w ≠ []) (ha : a ≠ [])
    (hdata : c.configData = []) {ps : ProtoSet} (h : getForDirOf c o w a = .ok ps) : ∃ root fs,
      IsAbsPath root ∧ ps.workDirPath = absClean c.wd w ∧ ps.dirPath = absClean c.wd a ∧
      (NearestConfig c.host.stat ps.dirPath root ∨
        root = ps.dirPath ∧ ∀ dd, Within ps.dirPath dd → NoConfig c.host.stat dd) ∧
      walkAll (walkConfig c ps.workDirPath root) (c.tree root) [] = .ok fs ∧
      ∀ dir, GoMap.get? ps.dirPathToFiles dir = GoMap.get? (getDirPathToProtoFiles fs) dir := by
  obtain ⟨root, D, fs, b, h1, h2, h3, h4, rfl⟩ := getForDirOf_stages h
  have hwa := absClean_isAbsPath hwd hw
  have hda := absClean_isAbsPath hwd ha
  obtain ⟨hra, _, hr⟩ := walkRoot_spec hwa hda h1
  have hD : D = [] := by
    unfold dataExcludes at h2
    rw [if_neg (by simp [hdata])] at h2
    injection h2 with h2; exact h2.symm
  subst hD
  obtain ⟨_, hget, _⟩ := getBaseProtoSets_single (group_nodup fs) h4
  exact ⟨root, fs, hra, rfl, rfl, hr hdata, h3, hget⟩

/-- What is listed in a set that was found. -/
theorem listed_iff {c : Provider} {o : Order} {w a : Str} (hwd : IsAbsPath c.wd) (hw : w ≠ []) (ha : a ≠ [])
    (hdata : c.configData = []) (ht : ∀ p, TreeOK (c.tree p)) (hbelow : ExcludesBelow (getExcludePrefixesForDir c.host))
    {ps : ProtoSet} (h : getForDirOf c o w a = .ok ps) : ∃ root,
      ps.workDirPath = absClean c.wd w ∧ ps.dirPath = absClean c.wd a ∧
      (NearestConfig c.host.stat ps.dirPath root ∨
        root = ps.dirPath ∧ ∀ dd, Within ps.dirPath dd → NoConfig c.host.stat dd) ∧
      ∀ dir f, Listed ps dir f ↔ Path.dir f.path = dir ∧ f.displayPath = displayPathOf ps.workDirPath f.path ∧
        ProtoFileIn root (c.tree root) f.path ∧ ¬ ExcludedIn (walkConfig c ps.workDirPath root) [] f.path := by
  obtain ⟨root, D, fs, b, h1, h2, h3, h4, rfl⟩ := getForDirOf_stages h
  have hwa := absClean_isAbsPath hwd hw
  have hda := absClean_isAbsPath hwd ha
  obtain ⟨hra, _, hr⟩ := walkRoot_spec hwa hda h1
  have hD : D = [] := by
    unfold dataExcludes at h2
    rw [if_neg (by simp [hdata])] at h2
    injection h2 with h2; exact h2.symm
  subst hD
  obtain ⟨hn, hdisp, hmem⟩ := walkAll_spec (c := walkConfig c (absClean c.wd w) root) (fun _ => hbelow)
    (fun _ => rfl) hra (ht root) h3
  obtain ⟨_, hget, _⟩ := getBaseProtoSets_single (group_nodup fs) h4
  refine ⟨root, rfl, rfl, hr hdata, fun dir f => ?_⟩
  have hf : f ∈ fs ↔ f.displayPath = displayPathOf (absClean c.wd w) f.path ∧
      ProtoFileIn root (c.tree root) f.path ∧ ¬ ExcludedIn (walkConfig c (absClean c.wd w) root) [] f.path := by
    constructor
    · intro hf
      exact ⟨hdisp f hf, (hmem f.path).1 (List.mem_map.2 ⟨f, hf, rfl⟩)⟩
    · rintro ⟨h5, h6⟩
      obtain ⟨g, hg, e⟩ := List.mem_map.1 ((hmem f.path).2 h6)
      have e2 := hdisp g hg
      change g.displayPath = displayPathOf (absClean c.wd w) g.path at e2
      have : g = f := by
        cases g; cases f
        simp only at e e2 h5 ⊢
        rw [e] at e2
        rw [e, e2, h5]
      rwa [← this]
  rw [← hf]
  unfold Listed
  dsimp only
  rw [hget, group_get?]
  constructor
  · rintro ⟨fs', hfs, hmf⟩
    split at hfs
    · cases hfs
    · injection hfs with hfs
      subst hfs
      rw [List.mem_filter] at hmf
      exact ⟨by simpa using hmf.2, hmf.1⟩
  · rintro ⟨h5, h6⟩
    have hm : f ∈ fs.filter (fun f => Path.dir f.path = dir) := List.mem_filter.2 ⟨h6, by simpa using h5⟩
    exact ⟨_, if_neg (List.ne_nil_of_mem hm), hm⟩

/-- C113: let `x` be added to the excludes in the configuration file that governs the directory asked for. If the files
could be found before and can be found after, then the files found after are those found before that do not lie at or
below `x`; each is listed for the same directory and under the same name. -/
theorem C113_found (c c' : Provider) (o o' : Order) (w a d x : Str) (add : AddsExclude c c' d x)
    (hwd : IsAbsPath c.wd) (hw : w ≠ []) (ha : a ≠ []) (ht : ∀ p, TreeOK (c.tree p))
    (hbelow : ExcludesBelow (getExcludePrefixesForDir c.host)) (ps ps' : ProtoSet)
    (h : getForDirOf c o w a = .ok ps) (h' : getForDirOf c' o' w a = .ok ps')
    (hd : NearestConfig c.host.stat ps.dirPath d) (dir : Str) (f : ProtoFile) :
    Listed ps' dir f ↔ Listed ps dir f ∧ ¬ Within f.path (locate d x) := by
  obtain ⟨root, hwp, hdp, hroot, hl⟩ := listed_iff hwd hw ha add.data ht hbelow h
  obtain ⟨root', hwp', hdp', hroot', hl'⟩ := listed_iff (by rw [add.wd]; exact hwd) hw ha
    (add.configData.trans add.data) (fun p => by rw [add.tree]; exact ht p) (add.excludesBelow hbelow) h'
  have hr : root = d := by
    rcases hroot with hroot | ⟨_, hno⟩
    · exact nearest_unique hroot hd
    · obtain ⟨q, hq⟩ := hd.2.1
      exact absurd hq (hno d hd.1 q)
  have hr' : root' = d := by
    rw [add.stat, hdp', add.wd, ← hdp] at hroot'
    rcases hroot' with hroot' | ⟨_, hno⟩
    · exact nearest_unique hroot' hd
    · obtain ⟨q, hq⟩ := hd.2.1
      exact absurd hq (hno d hd.1 q)
  subst hr
  rw [hr', add.tree, hwp', add.wd, ← hwp] at hl'
  rw [hl, hl', add.excludedIn]
  constructor
  · rintro ⟨h1, h2, h3, h4⟩
    exact ⟨⟨h1, h2, h3, fun hx => h4 (.inl hx)⟩, fun hx => h4 (.inr hx)⟩
  · rintro ⟨⟨h1, h2, h3, h4⟩, h5⟩
    exact ⟨h1, h2, h3, fun hx => hx.elim h4 h5⟩

open Classical in
/-- C113: the files that stay are found in the order they had. -/
theorem C113_lists (c c' : Provider) (o o' : Order) (w a d x : Str) (add : AddsExclude c c' d x)
    (hwd : IsAbsPath c.wd) (hw : w ≠ []) (ha : a ≠ []) (ht : ∀ p, TreeOK (c.tree p))
    (hbelow : ExcludesBelow (getExcludePrefixesForDir c.host)) (ps ps' : ProtoSet)
    (h : getForDirOf c o w a = .ok ps) (h' : getForDirOf c' o' w a = .ok ps')
    (hd : NearestConfig c.host.stat ps.dirPath d) (dir : Str) (fs' : List ProtoFile) :
    GoMap.get? ps'.dirPathToFiles dir = some fs' ↔ fs' ≠ [] ∧ ∃ fs, GoMap.get? ps.dirPathToFiles dir = some fs ∧
      fs' = fs.filter fun f => decide (¬ Within f.path (locate d x)) := by
  obtain ⟨root, gs, hra, hwp, hdp, hroot, hwalk, hget⟩ := listed_walk hwd hw ha add.data h
  obtain ⟨root', gs', _, hwp', hdp', hroot', hwalk', hget'⟩ := listed_walk (c := c') (by rw [add.wd]; exact hwd) hw ha
    (add.configData.trans add.data) h'
  have hr : root = d := by
    rcases hroot with hroot | ⟨_, hno⟩
    · exact nearest_unique hroot hd
    · obtain ⟨q, hq⟩ := hd.2.1
      exact absurd hq (hno d hd.1 q)
  have hr' : root' = d := by
    rw [add.stat, hdp', add.wd, ← hdp] at hroot'
    rcases hroot' with hroot' | ⟨_, hno⟩
    · exact nearest_unique hroot' hd
    · obtain ⟨q, hq⟩ := hd.2.1
      exact absurd hq (hno d hd.1 q)
  subst hr
  rw [hr', add.tree, hwp', add.wd, ← hwp] at hwalk'
  obtain ⟨hn, hdisp, hmem⟩ := walkAll_spec (c := walkConfig c ps.workDirPath root) (fun _ => hbelow)
    (fun _ => rfl) hra (ht root) hwalk
  obtain ⟨hn', hdisp', hmem'⟩ := walkAll_spec (c := walkConfig c' ps.workDirPath root)
    (fun _ => add.excludesBelow hbelow) (fun _ => rfl) hra (ht root) hwalk'
  have hpaths := walkAll_order (c := walkConfig c ps.workDirPath root) (c' := walkConfig c' ps.workDirPath root)
    hra rfl (ht root) hwalk hwalk' (fun p => ¬ Within p (locate root x)) (fun p => by
      rw [hmem, hmem', add.excludedIn]
      constructor
      · rintro ⟨h3, h4⟩
        exact ⟨⟨h3, fun hx => h4 (.inl hx)⟩, fun hx => h4 (.inr hx)⟩
      · rintro ⟨⟨h3, h4⟩, h5⟩
        exact ⟨h3, fun hx => hx.elim h4 h5⟩)
  have hfs : gs' = gs.filter fun f => decide (¬ Within f.path (locate root x)) := by
    have e1 : ∀ l : List ProtoFile, (∀ f ∈ l, f.displayPath = displayPathOf ps.workDirPath f.path) →
        l = (l.map (·.path)).map fun p => ⟨p, displayPathOf ps.workDirPath p⟩ := by
      intro l hl
      rw [List.map_map]
      conv => lhs; rw [← List.map_id l]
      apply List.map_congr_left
      intro f hf
      have := hl f hf
      cases f
      simp only at this
      simp [this]
    rw [e1 gs' hdisp', hpaths]
    conv => rhs; rw [e1 gs hdisp]
    simp only [List.filter_map, List.map_map]
    rfl
  rw [hget, hget', group_get?, group_get?, hfs]
  have hcomm : (gs.filter fun f => decide (¬ Within f.path (locate root x))).filter (fun f => Path.dir f.path = dir) =
      (gs.filter fun f => Path.dir f.path = dir).filter fun f => decide (¬ Within f.path (locate root x)) := by
    rw [List.filter_filter, List.filter_filter]
    exact List.filter_congr fun _ _ => Bool.and_comm _ _
  rw [hcomm]
  generalize gs.filter (fun f => Path.dir f.path = dir) = l
  constructor
  · intro e
    split at e
    · cases e
    · rename_i hne
      injection e with e
      subst e
      refine ⟨hne, l, if_neg fun e => hne (by rw [e]; rfl), rfl⟩
  · rintro ⟨hne, fs, e, rfl⟩
    split at e
    · cases e
    · injection e with e
      subst e
      exact if_neg hne

theorem finishConfig_excludes (develMode : Bool) (e : ExternalConfig) (dirPath : Str) (l es es' : List Str)
    (plugins : List GenPlugin) (packages : GoMap Str Str) (header : Str) :
    finishConfig develMode { e with excludes := l } dirPath es' plugins packages header =
      (finishConfig develMode e dirPath es plugins packages header).map fun k => { k with excludePrefixes := es' } := by
  unfold finishConfig buildConfig
  dsimp only
  split
  · rfl
  · split
    · rfl
    · split <;> rfl

theorem finishConfig_ok {develMode : Bool} {e : ExternalConfig} {dirPath : Str} {es : List Str}
    {plugins : List GenPlugin} {packages : GoMap Str Str} {header : Str} {k : Config}
    (h : finishConfig develMode e dirPath es plugins packages header = .ok k) : k.excludePrefixes = es := by
  unfold finishConfig buildConfig at h
  dsimp only at h
  split at h
  · cases h
  split at h
  · cases h
  split at h
  · cases h
  injection h with h
  rw [← h]

/-- C113: the configuration is the same except for the excludes. -/
theorem C113_config (c c' : Provider) (o o' : Order) (w a d x : Str) (add : AddsExclude c c' d x)
    (hwd : IsAbsPath c.wd) (hw : w ≠ []) (ha : a ≠ []) (ht : ∀ p, TreeOK (c.tree p))
    (hbelow : ExcludesBelow (getExcludePrefixesForDir c.host)) (ps ps' : ProtoSet)
    (h : getForDirOf c o w a = .ok ps) (h' : getForDirOf c' o' w a = .ok ps')
    (hd : NearestConfig c.host.stat ps.dirPath d) (dir : Str) (f : ProtoFile)
    (hc : NearestConfig c.host.stat dir d) (hf : Listed ps' dir f) :
    ∃ es, ps'.config = { ps.config with excludePrefixes := es } ∧
      ∀ e, e ∈ es ↔ e ∈ ps.config.excludePrefixes ∨ e = locate d x := by
  have hl := ((C113_found c c' o o' w a d x add hwd hw ha ht hbelow ps ps' h h' hd dir f).1 hf).1
  obtain ⟨fs, hg, _⟩ := hl
  obtain ⟨fs', hg', _⟩ := hf
  obtain ⟨es0, hes0⟩ := add.valid
  have huniq : ∀ p q, ConfigFile c.host.stat d p → ConfigFile c.host.stat d q → p = q := by
    intro p q hp hq
    obtain ⟨cs, hcs, e⟩ := add.isAbs
    unfold getExcludePrefixesForDir at hes0
    rw [isAbs_of_isAbsPath add.isAbs, clean_of_isAbsPath add.isAbs] at hes0
    simp only [Bool.not_true, Bool.false_eq_true, if_false] at hes0
    subst e
    rcases single_cases c.host hcs with ⟨r, _, _, _, hu⟩ | ⟨_, hno⟩ | ⟨err, _, _, he, _⟩
    · rw [hu p hp, hu q hq]
    · exact absurd hp (hno p)
    · rw [he] at hes0; cases hes0
  rcases C54_own_configuration c o w a hwd hw ha ht add.data hbelow ps h dir fs hg with
    ⟨dd, p, hn, hp, hcfg, hdir⟩ | ⟨hno, hx⟩
  · have : dd = d := nearest_unique hn hc
    subst this
    rcases C54_own_configuration c' o' w a (by rw [add.wd]; exact hwd) hw ha (fun p => by rw [add.tree]; exact ht p)
      (add.configData.trans add.data) (add.excludesBelow hbelow) ps' h' dir fs' hg' with
      ⟨dd', p', hn', hp', hcfg', _⟩ | ⟨hno, _⟩
    · rw [add.stat] at hn' hp'
      have := nearest_unique hn' hn
      subst this
      have := huniq _ _ hp' hp
      subst this
      obtain ⟨e, h1, h2, h3⟩ := add.own p' hp
      obtain ⟨cs, name, hcs, hname, rfl, rfl, _⟩ := id hp
      have hcomp : Components (cs ++ [name]) := by
        rcases hname with rfl | rfl
        · exact components_snoc hcs component_yaml
        · exact components_snoc hcs component_json
      unfold getConfig at hcfg hcfg'
      rw [isAbs_absPath, clean_absPath hcomp, dir_snoc hcomp] at hcfg hcfg'
      rw [h1] at hcfg
      rw [h2] at hcfg'
      rw [add.sort, add.develMode] at hcfg'
      simp only [Bool.not_true, Bool.false_eq_true, if_false] at hcfg hcfg'
      have hheader : fileHeaderOf c'.host { e with excludes := e.excludes ++ [x] } (absPath cs) =
          fileHeaderOf c.host e (absPath cs) := by
        have : fileHeaderContentOf c'.host { e with excludes := e.excludes ++ [x] } (absPath cs) =
            fileHeaderContentOf c.host e (absPath cs) := by
          unfold fileHeaderContentOf
          dsimp only
          split
          · split
            · rfl
            · rename_i ha
              unfold locate at h3
              rw [if_neg ha] at h3
              exact add.others _ h3
          · rfl
        unfold fileHeaderOf
        rw [this]
      unfold externalConfigToConfig at hcfg hcfg'
      rw [hheader] at hcfg'
      dsimp only at hcfg hcfg'
      cases hE : getExcludePrefixes e.excludes (absPath cs) with
      | error er => rw [hE] at hcfg; cases hcfg
      | ok es =>
        cases hE' : getExcludePrefixes (e.excludes ++ [x]) (absPath cs) with
        | error er => rw [hE'] at hcfg'; cases hcfg'
        | ok es' =>
          rw [hE] at hcfg
          rw [hE'] at hcfg'
          obtain ⟨es2, h4, h5⟩ := (getExcludePrefixes_more ⟨cs, hcs, rfl⟩ add.below add.named e.excludes).1 es' hE'
          rw [hE] at h4
          injection h4 with h4
          subst h4
          dsimp only at hcfg hcfg'
          split at hcfg
          · cases hcfg
          split at hcfg
          · cases hcfg
          split at hcfg
          · cases hcfg
          rename_i plugins hplug _ packages hpack _ header hhead
          rw [hplug] at hcfg'
          dsimp only at hcfg'
          rw [hpack] at hcfg'
          dsimp only at hcfg'
          rw [hhead] at hcfg'
          dsimp only at hcfg'
          have := finishConfig_excludes c.develMode e (absPath cs) (e.excludes ++ [x]) es es'
            (c.sort.run (fun a b => Str.lt a.name b.name) plugins) packages header
          rw [hcfg, hcfg'] at this
          injection this with this
          refine ⟨es', this, fun y => ?_⟩
          rw [h5 y, finishConfig_ok hcfg]
    · obtain ⟨q, hq⟩ := hn.2.1
      rw [add.stat] at hno
      exact absurd hq (hno dd hn.1 q)
  · obtain ⟨q, hq⟩ := hc.2.1
    exact absurd hq (hno d hc.1 q)

/-! ## Commands -/

theorem listed_nodup {c : Provider} {o : Order} {w a : Str} (hwd : IsAbsPath c.wd) (hw : w ≠ []) (ha : a ≠ [])
    (ht : ∀ p, TreeOK (c.tree p)) (hbelow : c.configData = [] → ExcludesBelow (getExcludePrefixesForDir c.host))
    {ps : ProtoSet} (h : getForDirOf c o w a = .ok ps) : (ps.dirPathToFiles.map (·.1)).Nodup := by
  obtain ⟨_, _, _, _, _, _, hn⟩ := C21_discovery c o w a hwd hw ha ht hbelow ps h
  exact hn

theorem listed_mem {ps : ProtoSet} (hn : (ps.dirPathToFiles.map (·.1)).Nodup) (dir : Str) (f : ProtoFile) :
    Listed ps dir f ↔ ∃ fs, (dir, fs) ∈ ps.dirPathToFiles ∧ f ∈ fs := by
  unfold Listed
  constructor
  · rintro ⟨fs, h, hf⟩
    exact ⟨fs, GoMap.get?_some_mem h, hf⟩
  · rintro ⟨fs, h, hf⟩
    exact ⟨fs, GoMap.get?_of_mem hn h, hf⟩

/-- C113: with the exclude added, the files command prints the paths it printed before, without those of the files at
or below the exclude. -/
theorem C113_files (h h' : Exec.Host) (c c' : Provider) (o o' : Order) (hd : Discovers h c o) (hd' : Discovers h' c' o')
    (hstat : h'.stat = h.stat) (hwork : h'.workDirPath = h.workDirPath) (hp : Prints h) (hp' : Prints h')
    (d x : Str) (add : AddsExclude c c' d x) (order order' : Order) (args : List Str) (m m' : Meta)
    (hm : Finds h args m) (hm' : Finds h' args m') (hn : ∀ f, Found m f → f.displayPath ≠ [])
    (hnear : NearestConfig c.host.stat m.protoSet.dirPath d) (w w' : World) :
    ∃ lines lines',
      filesCmd h order args w = ({ w with out := w.out ++ lines.flatMap (· ++ s%"\n") }, .ok ()) ∧
      filesCmd h' order' args w' = ({ w' with out := w'.out ++ lines'.flatMap (· ++ s%"\n") }, .ok ()) ∧
      Sorted Str.le lines ∧ Sorted Str.le lines' ∧
      (∀ s, s ∈ lines ↔ ∃ f, Concerns h { m with singleFilename := [] } f ∧ f.displayPath = s) ∧
      ∀ s, s ∈ lines' ↔ ∃ f, Concerns h { m with singleFilename := [] } f ∧ f.displayPath = s ∧
        ¬ Within f.path (locate d x) := by
  have hsame : ∃ a, a ≠ [] ∧ getForDirOf c o h.workDirPath a = .ok m.protoSet ∧
      getForDirOf c' o' h.workDirPath a = .ok m'.protoSet := by
    obtain ⟨y, hy, hf⟩ := hm
    obtain ⟨y', hy', hf'⟩ := hm'
    have : y' = y := by
      rcases hy with hy | ⟨hy, e⟩ <;> rcases hy' with hy' | ⟨hy', e'⟩
      · rw [hy] at hy'; injection hy' with e; exact e.symm
      · rw [hy] at hy'; exact absurd rfl hy'
      · rw [hy'] at hy; exact absurd rfl hy
      · rw [e, e']
    subst this
    rw [hd.getForDir] at hf
    rw [hd'.getForDir, hwork, hstat] at hf'
    rcases hf with ⟨h1, h2, _⟩ | ⟨h1, h2, _⟩ <;> rcases hf' with ⟨g1, g2, _⟩ | ⟨g1, g2, _⟩
    · exact ⟨y', fun e => hd.stat .dir (e ▸ h1), h2, g2⟩
    · rw [h1] at g1; cases g1
    · rw [h1] at g1; cases g1
    · exact ⟨Path.dir y', clean_ne_nil _, h2, g2⟩
  obtain ⟨a, ha, hg, hg'⟩ := hsame
  have hfound := C113_found c c' o o' h.workDirPath a d x add hd.wd hd.workDirPath ha hd.tree
    (hd.excludes add.data) m.protoSet m'.protoSet hg hg' hnear
  have hnd := listed_nodup hd.wd hd.workDirPath ha hd.tree hd.excludes hg
  have hnd' := listed_nodup (by rw [add.wd]; exact hd.wd) hd.workDirPath ha hd'.tree hd'.excludes hg'
  have hdir : m'.protoSet.dirPath = m.protoSet.dirPath := by
    obtain ⟨_, _, _, _, _, _, _, _, e⟩ := getForDirOf_stages hg
    obtain ⟨_, _, _, _, _, _, _, _, e'⟩ := getForDirOf_stages hg'
    rw [e, e', add.wd]
  have hconc : ∀ f, Concerns h' { m' with singleFilename := [] } f ↔
      Concerns h { m with singleFilename := [] } f ∧ ¬ Within f.path (locate d x) := by
    intro f
    unfold Concerns
    dsimp only
    simp only [true_or, and_true]
    constructor
    · rintro ⟨dir, files, h1, h2, h3⟩
      obtain ⟨h4, h5⟩ := (hfound dir f).1 ((listed_mem hnd' dir f).2 ⟨files, h1, h3⟩)
      obtain ⟨fs, h6, h7⟩ := (listed_mem hnd dir f).1 h4
      exact ⟨⟨dir, fs, h6, hdir ▸ h2, h7⟩, h5⟩
    · rintro ⟨⟨dir, files, h1, h2, h3⟩, h4⟩
      obtain ⟨fs, h6, h7⟩ := (listed_mem hnd' dir f).1
        ((hfound dir f).2 ⟨(listed_mem hnd dir f).2 ⟨files, h1, h3⟩, h4⟩)
      exact ⟨dir, fs, h6, hdir ▸ h2, h7⟩
  have hn' : ∀ f, Found m' f → f.displayPath ≠ [] := by
    rintro f ⟨dir, files, h1, h2⟩
    obtain ⟨fs, h3, h4⟩ := (listed_mem hnd dir f).1
      ((hfound dir f).1 ((listed_mem hnd' dir f).2 ⟨files, h1, h2⟩)).1
    exact hn f ⟨dir, fs, h3, h4⟩
  obtain ⟨lines, e1, e2, e3, _⟩ := C63_files h hp order args m hm hn w
  obtain ⟨lines', e1', e2', e3', _⟩ := C63_files h' hp' order' args m' hm' hn' w'
  refine ⟨lines, lines', e1, e1', e2, e2', e3, fun s => ?_⟩
  rw [e3' s]
  constructor
  · rintro ⟨f, hf, e⟩
    exact ⟨f, ((hconc f).1 hf).1, e, ((hconc f).1 hf).2⟩
  · rintro ⟨f, hf, e, hx⟩
    exact ⟨f, (hconc f).2 ⟨hf, hx⟩, e⟩

/-- A run does not look at the excludes: they are for the search for files. -/
theorem run_excludes {env : Lint.Env} {host : Lint.Host} {ps : ProtoSet} {abs : Bool} (hs : Sound host ps abs)
    (es : List Str) {fs : List Text.Failure} (h : Lint.run env host ps abs = some (.ok fs)) :
    Lint.run env host (under { ps.config with excludePrefixes := es } ps) abs = some (.ok fs) := by
  obtain ⟨ls, hl, _, _⟩ := (Lint.run_dirs_iff hs).1 h
  have hk : KnownNames ps.config.lint := (C23_known_names env ps.config.lint).1 ⟨ls, hl⟩
  have := C100_fewer env host ps abs hs { ps.config with excludePrefixes := es } rfl hk
    (fun rule hr => ⟨hr, ⟨rfl, rfl, fun _ => rfl, fun _ => rfl, fun _ => rfl⟩⟩) fs h
  rw [this]
  congr 2
  exact List.filter_eq_self.2 fun f hf => by
    have := (C92_about env host ps abs hs fs h f hf).1
    simpa using this

/-- C113: with the exclude added, lint says of a file that stays what it said before, under all rules for single files;
and under all rules, if no other file in its directory went. -/
theorem C113_lint (c c' : Provider) (o o' : Order) (w a d x : Str) (add : AddsExclude c c' d x)
    (hwd : IsAbsPath c.wd) (hw : w ≠ []) (ha : a ≠ []) (ht : ∀ p, TreeOK (c.tree p))
    (hbelow : ExcludesBelow (getExcludePrefixesForDir c.host)) (ps ps' : ProtoSet)
    (h : getForDirOf c o w a = .ok ps) (h' : getForDirOf c' o' w a = .ok ps')
    (hd : NearestConfig c.host.stat ps.dirPath d)
    (env : Lint.Env) (host : Lint.Host) (abs : Bool) (hs : Sound host ps abs) (hs' : Sound host ps' abs)
    (hown : OwnNames ps abs) (hown' : OwnNames ps' abs) (fs fs' : List Text.Failure)
    (hrun : Lint.run env host ps abs = some (.ok fs)) (hrun' : Lint.run env host ps' abs = some (.ok fs'))
    (dir : Str) (g : ProtoFile) (hc : NearestConfig c.host.stat dir d) (hin : ps.dirPath <+: dir)
    (hg : Listed ps dir g) (hstays : ¬ Within g.path (locate d x)) :
    (about (nameIn abs g) fs').filter (fun f => decide (f.lintID ∉ directoryRules)) =
      (about (nameIn abs g) fs).filter (fun f => decide (f.lintID ∉ directoryRules)) ∧
    ((∀ f, Listed ps dir f → ¬ Within f.path (locate d x)) →
      about (nameIn abs g) fs' = about (nameIn abs g) fs) := by
  have hg' := (C113_found c c' o o' w a d x add hwd hw ha ht hbelow ps ps' h h' hd dir g).2 ⟨hg, hstays⟩
  obtain ⟨es, hcfg, _⟩ := C113_config c c' o o' w a d x add hwd hw ha ht hbelow ps ps' h h' hd dir g hc hg'
  have hrun2 := run_excludes hs es hrun
  have hdir : ps'.dirPath = ps.dirPath := by
    obtain ⟨_, _, _, _, _, _, _, _, e⟩ := getForDirOf_stages h
    obtain ⟨_, _, _, _, _, _, _, _, e'⟩ := getForDirOf_stages h'
    rw [e, e', add.wd]
  have hs2 : Sound host (under { ps.config with excludePrefixes := es } ps) abs := ⟨hs.parse, hs.files⟩
  obtain ⟨files, hf1, hf2⟩ := hg
  obtain ⟨files', hf1', hf2'⟩ := hg'
  constructor
  · exact C92_alone env host host (under { ps.config with excludePrefixes := es } ps) ps' abs hs2 hs' hown hown' hcfg rfl
      dir files files' (GoMap.get?_some_mem hf1) (GoMap.get?_some_mem hf1') hin (hdir ▸ hin) g hf2 hf2' rfl fs fs' hrun2 hrun'
  · intro hall
    have : files' = files := by
      obtain ⟨_, fs0, h1, h2⟩ := (C113_lists c c' o o' w a d x add hwd hw ha ht hbelow ps ps' h h' hd dir files').1 hf1'
      rw [hf1] at h1
      injection h1 with h1
      subst h1
      rw [h2]
      exact List.filter_eq_self.2 fun f hf => by
        have := hall f ⟨files, hf1, hf⟩
        simpa using this
    subst this
    exact C92_run env host host (under { ps.config with excludePrefixes := es } ps) ps' abs hs2 hs' hown hown' hcfg rfl
      dir files' (GoMap.get?_some_mem hf1) (GoMap.get?_some_mem hf1') hin (hdir ▸ hin) (fun _ _ => rfl) fs fs' hrun2 hrun' g hf2'

/-! ## Non-vacuity -/

/-- The provider of the example for C21, with this text in the configuration file. -/
def excluding (text : Str) : Provider :=
  { exProvider with
    host :=
      { stat := fun p => decide (p = s%"/w/prototool.yaml")
        readFile := fun p => if p = s%"/w/prototool.yaml" then .ok text else .error []
        parseYAML := fun data =>
          .ok { excludes := if data = s%"old" then [s%"b"] else [s%"b"] ++ [s%"a/z.proto"] } } }

theorem excluding_adds : AddsExclude (excluding s%"old") (excluding s%"new") s%"/w" s%"a/z.proto" where
  data := rfl
  stat := rfl
  parseYAML := rfl
  sort := rfl
  develMode := rfl
  configData := rfl
  wd := rfl
  tree := rfl
  file := ⟨s%"/w/prototool.yaml", [s%"w"], s%"prototool.yaml", by unfold Components Component; decide, .inl rfl, rfl, rfl, rfl⟩
  others := by
    intro p hp
    have : p ≠ s%"/w/prototool.yaml" := by
      rintro rfl
      exact hp ⟨[s%"w"], s%"prototool.yaml", by unfold Components Component; decide, .inl rfl, rfl, rfl, rfl⟩
    simp only [excluding, if_neg this]
  own := by
    rintro p ⟨cs, name, _, _, _, _, h⟩
    have hp : p = s%"/w/prototool.yaml" := by simpa [excluding] using h
    subst hp
    refine ⟨{ excludes := [s%"b"] }, rfl, rfl, ?_⟩
    rintro ⟨_, _, _, _, _, _, h⟩
    revert h
    decide
  valid := ⟨_, rfl⟩
  relative := by decide
  named := by decide
  noUp := by decide
  proper := by decide

theorem excluding_below (text : Str) : ExcludesBelow (getExcludePrefixesForDir (excluding text).host) := by
  apply C21_excludes_below
  intro f e h x hx _
  have : ∀ y ∈ e.excludes, y = s%"b" ∨ y = s%"a/z.proto" := by
    unfold getExternalConfig at h
    simp only [excluding] at h
    by_cases hf : f = s%"/w/prototool.yaml"
    · subst hf
      simp only [if_true] at h
      split at h
      · injection h with h; subst h
        intro y hy; cases hy
      · have e1 : ext s%"/w/prototool.yaml" = s%".yaml" := by decide
        rw [e1] at h
        simp only [if_neg (show ¬ (s%".yaml" : Str) = s%".json" by decide), if_true] at h
        injection h with h; subst h
        intro y hy
        dsimp only at hy
        split at hy
        · exact .inl (List.mem_singleton.1 hy)
        · rcases List.mem_append.1 hy with hy | hy
          · exact .inl (List.mem_singleton.1 hy)
          · exact .inr (List.mem_singleton.1 hy)
    · rw [if_neg hf] at h; cases h
  rcases this x hx with rfl | rfl <;> decide

/-- Before, the file `a/z.proto` is found; after it was excluded, it is not, and the others are. -/
example : ∃ ps ps', getForDirOf (excluding s%"old") Order.rev s%"." s%"." = .ok ps ∧
    getForDirOf (excluding s%"new") Order.rev s%"." s%"." = .ok ps' ∧
    NearestConfig (excluding s%"old").host.stat ps.dirPath s%"/w" ∧
    NearestConfig (excluding s%"old").host.stat s%"/w/a" s%"/w" ∧
    ps.dirPathToFiles.map (fun x => (x.1, x.2.map (·.path))) =
      [(s%"/w", [s%"/w/b.proto"]), (s%"/w/a", [s%"/w/a/x.proto", s%"/w/a/z.proto"])] ∧
    ps'.dirPathToFiles.map (fun x => (x.1, x.2.map (·.path))) =
      [(s%"/w", [s%"/w/b.proto"]), (s%"/w/a", [s%"/w/a/x.proto"])] := by
  have hn : NearestConfig (excluding s%"old").host.stat s%"/w/a" s%"/w" := nested_nearest _ (.inr rfl)
  exact ⟨_, _, rfl, rfl, hn, hn, rfl, rfl⟩

end Verif.Props
