import Verif.Proof.Discoverable
import Verif.Props.Discovery
import Verif.Props.ExecFiles

/-!
# C114: files are found if nothing is wrong
-/

namespace Verif.Props

open Verif Str Path Spec Settings File

theorem plainly_of_names {root p : Str} {t : File.Node} (ht : TreeOK t) (hn : PlainNames t) (h : ProtoFileIn root t p) :
    PlainlyBelow p root := by
  obtain ⟨rs, ds, q, hrs, rfl, rfl, hf, _⟩ := h
  obtain ⟨entries, rfl, hnames⟩ := hn
  have hds := nodeAt_components ht hf
  cases ds with
  | nil => cases hf
  | cons name rest =>
    obtain ⟨node, hm, _⟩ := (nodeAt_dir_cons (ht [] entries rfl).1 name rest).1 hf
    exact ⟨rs, name, rest, components_append.2 ⟨hrs, hds⟩, rfl, rfl, hnames _ hm⟩

theorem entry_of_found {root p : Str} {t : File.Node} (ht : TreeOK t) (hn : PlainNames t) (h : ProtoFileIn root t p) :
    EntryOf p (Path.dir p) := by
  obtain ⟨cs, name, rest, hc, rfl, rfl, _⟩ := plainly_of_names ht hn h
  obtain ⟨as, x, e⟩ : ∃ as x, cs ++ name :: rest = as ++ [x] := ⟨_, _, (List.dropLast_concat_getLast (by simp)).symm⟩
  rw [e] at hc ⊢
  rw [dir_isAbsPath hc]
  exact ⟨as, x, hc, rfl, rfl⟩

/-- C114, with a configuration file: let it be the nearest one above the directory asked for. If no directory has two
configuration files, all of those in the tree are accepted, the tree can be read, the files to be found are all governed
by this configuration file and no name in its directory starts with two dots, then discovery succeeds. If there is no
file to be found, the configuration of the working directory has to be accepted. -/
theorem C114_configured_partial (c : Provider) (o : Order) (w a d : Str) (hwd : IsAbsPath c.wd) (hw : w ≠ []) (ha : a ≠ [])
    (hdata : c.configData = []) (hd : NearestConfig c.host.stat (absClean c.wd a) d) (ht : TreeOK (c.tree d))
    (hbelow : ExcludesBelow (getExcludePrefixesForDir c.host)) (hone : OneConfigEach c.host.stat)
    (hvalid : ConfigsValid c d) (hread : Readable (c.tree d)) (hnames : PlainNames (c.tree d))
    (hsame : ∀ p dir, ToBeFound c (absClean c.wd w) d [] p → EntryOf p dir → NearestConfig c.host.stat dir d)
    (hdef : (∃ p, ToBeFound c (absClean c.wd w) d [] p) ∨
      ∃ k, getForDir c.sort c.host c.develMode (absClean c.wd w) = some (.ok k)) :
    ∃ ps, getForDirOf c o w a = .ok ps := by
  have hwa := absClean_isAbsPath hwd hw
  have hda := absClean_isAbsPath hwd ha
  have hdabs : IsAbsPath d := (within_isAbsPath hd.1).2
  have find : ∀ {e : Str}, IsAbsPath e → NearestConfig c.host.stat e d → ∃ p, p ≠ [] ∧ ConfigFile c.host.stat d p ∧
      getFilePathForDirOf c.host e = some (.ok p) := by
    intro e he hn
    obtain ⟨r, hr, ho⟩ := getFilePathForDirOf_outcome c.host (isAbs_of_isAbsPath he)
    rw [clean_of_isAbsPath he] at ho
    rcases ho with ⟨p, dd, rfl, hne, hn', hp, _⟩ | ⟨rfl, hno⟩ | ⟨er, dd, p, q, rfl, hn', h1, h2, h3⟩
    · have := nearest_unique hn' hn
      subst this
      exact ⟨p, hne, hp, hr⟩
    · obtain ⟨q, hq⟩ := hn.2.1
      exact absurd hq (hno d hn.1 q)
    · exact absurd (hone dd p q h1 h2) h3
  obtain ⟨p0, hp0, hcf0, hfind0⟩ := find hda hd
  obtain ⟨cfg, hcfg⟩ := hvalid d p0 (within_refl hdabs) hcf0
  have hdirs : Path.dir p0 = d ∧ cfg.dirPath = d := by
    obtain ⟨cs, name, hcs, hname, rfl, rfl, _⟩ := id hcf0
    have hcomp : Components (cs ++ [name]) := by
      rcases hname with rfl | rfl
      · exact components_snoc hcs component_yaml
      · exact components_snoc hcs component_json
    refine ⟨dir_isAbsPath hcomp, ?_⟩
    unfold getConfig at hcfg
    rw [isAbs_absPath, clean_absPath hcomp, dir_snoc hcomp] at hcfg
    simp only [Bool.not_true, Bool.false_eq_true, if_false] at hcfg
    split at hcfg
    · cases hcfg
    · rename_i e _
      rcases externalConfigToConfig_spec c.sort c.host c.develMode e ⟨cs, hcs, rfl⟩ with
        ⟨_, _, _, _, _, hx⟩ | ⟨_, err, hx⟩
      · rw [hx] at hcfg
        injection hcfg with hcfg
        rw [← hcfg]; rfl
      · rw [hx] at hcfg; cases hcfg
  have hroot : walkRoot c (absClean c.wd w) (absClean c.wd a) = .ok d := by
    unfold walkRoot
    rw [if_pos hdata, hfind0]
    dsimp only
    rw [if_pos hp0, hdirs.1]
  have hD : dataExcludes c (absClean c.wd w) = .ok [] := by
    unfold dataExcludes
    rw [if_neg (by simp [hdata])]
  obtain ⟨fs, hfs⟩ := walkAll_ok (c := walkConfig c (absClean c.wd w) d) (D := []) (fun _ => hbelow) (fun _ => rfl)
    hdabs ht hread (fun _ e he => excludes_of_valid hone hvalid he)
  obtain ⟨_, _, hmem⟩ := walkAll_spec (c := walkConfig c (absClean c.wd w) d) (fun _ => hbelow)
    (fun _ => rfl) hdabs ht hfs
  have hfound : ∀ f ∈ fs, ToBeFound c (absClean c.wd w) d [] f.path := fun f hf =>
    (hmem f.path).1 (List.mem_map.2 ⟨f, hf, rfl⟩)
  obtain ⟨ps, hps, _, _⟩ := discovery_ok o (k := p0) (cfg := cfg) hroot hD hfs
    (by
      rintro rfl
      rcases hdef with ⟨p, hp⟩ | ⟨k, hk⟩
      · have := (hmem p).2 hp
        cases this
      · exact ⟨([], k), by unfold defaultBaseSet; rw [if_pos hdata, hk]⟩)
    (by
      intro f hf
      have hff := hfound f hf
      have hen := entry_of_found ht hnames hff.1
      have hnear := hsame f.path _ hff hen
      have habs : IsAbsPath (Path.dir f.path) := (within_isAbsPath hnear.1).1
      obtain ⟨p, hp, hcf, hfind⟩ := find habs hnear
      have := hone d p p0 hcf hcf0
      subst this
      unfold configFor
      rw [if_pos hdata, hfind]
      dsimp only
      rw [if_pos hp, hcfg])
    (fun f hf => by
      rw [hdirs.2]
      exact validateIsRel_below (plainly_of_names ht hnames (hfound f hf).1))
  exact ⟨ps, hps⟩

/-- C114, with the configuration on the command line: if it is accepted, the tree at the working directory can be read
and no name in the working directory starts with two dots, then discovery succeeds, and with this configuration. -/
theorem C114_data_partial (c : Provider) (o : Order) (w a : Str) (hwd : IsAbsPath c.wd) (hw : w ≠ [])
    (hdata : c.configData ≠ []) (cfg : Config)
    (hcfg : getForData c.sort c.host c.develMode (absClean c.wd w) c.configData = .ok cfg)
    (ht : TreeOK (c.tree (absClean c.wd w))) (hread : Readable (c.tree (absClean c.wd w)))
    (hnames : PlainNames (c.tree (absClean c.wd w))) :
    ∃ ps, getForDirOf c o w a = .ok ps ∧
      ps.config = cfg := by
  have hwa := absClean_isAbsPath hwd hw
  have hhas : (walkConfig c (absClean c.wd w) (absClean c.wd w)).hasConfigData = true := by simp [walkConfig, hdata]
  obtain ⟨e, he, hext⟩ : ∃ e, jsonUnmarshalStrict c.configData = .ok e ∧
      externalConfigToConfig c.sort c.host c.develMode e (absClean c.wd w) = .ok cfg := by
    unfold getForData at hcfg
    rw [isAbs_of_isAbsPath hwa, clean_of_isAbsPath hwa] at hcfg
    simp only [Bool.not_true, Bool.false_eq_true, if_false] at hcfg
    split at hcfg
    · cases hcfg
    · rename_i e he
      exact ⟨e, he, hcfg⟩
  have hdir : cfg.dirPath = absClean c.wd w := by
    rcases externalConfigToConfig_spec c.sort c.host c.develMode e hwa with ⟨_, _, _, _, _, hx⟩ | ⟨_, err, hx⟩
    · rw [hx] at hext
      injection hext with hext
      rw [← hext]; rfl
    · rw [hx] at hext; cases hext
  obtain ⟨D, hD⟩ : ∃ D, dataExcludes c (absClean c.wd w) = .ok D := by
    unfold dataExcludes
    rw [if_pos hdata]
    unfold getExcludePrefixesForData
    rw [isAbs_of_isAbsPath hwa, clean_of_isAbsPath hwa, he]
    simp only [Bool.not_true, Bool.false_eq_true, if_false]
    unfold externalConfigToConfig at hext
    split at hext
    · cases hext
    · rename_i es hes
      exact ⟨es, hes⟩
  have hroot : walkRoot c (absClean c.wd w) (absClean c.wd a) = .ok (absClean c.wd w) := by
    unfold walkRoot
    rw [if_neg hdata]
  obtain ⟨fs, hfs⟩ := walkAll_ok (c := walkConfig c (absClean c.wd w) (absClean c.wd w)) (D := D)
    (fun h => by rw [hhas] at h; cases h) (fun h => by rw [hhas] at h; cases h) hwa ht hread
    (fun h => by rw [hhas] at h; cases h)
  obtain ⟨_, _, hmem⟩ := walkAll_spec (c := walkConfig c (absClean c.wd w) (absClean c.wd w))
    (fun h => by rw [hhas] at h; cases h) (fun h => by rw [hhas] at h; cases h) hwa ht hfs
  have hfor : ∀ dir, configFor c (absClean c.wd w) dir = .ok ([], cfg) := by
    intro dir
    unfold configFor
    rw [if_neg hdata, hcfg]
  obtain ⟨ps, hps, hc, hc'⟩ := discovery_ok o (k := []) (cfg := cfg) hroot hD hfs
    (fun _ => ⟨([], cfg), by unfold defaultBaseSet; rw [if_neg hdata, hcfg]⟩) (fun f _ => hfor _)
    (fun f hf => by
      rw [hdir]
      exact validateIsRel_below (plainly_of_names ht hnames ((hmem f.path).1 (List.mem_map.2 ⟨f, hf, rfl⟩)).1))
  refine ⟨ps, hps, ?_⟩
  by_cases hn : fs = []
  · exact hc' ([], cfg) hn (by unfold defaultBaseSet; rw [if_neg hdata, hcfg])
  · exact hc hn

/-- C114, with no configuration file at all: if the tree at the directory asked for can be read and the files to be found
are below the working directory, with no name in it that starts with two dots on the way, then discovery succeeds. -/
theorem C114_none_partial (c : Provider) (o : Order) (w a : Str) (hwd : IsAbsPath c.wd) (hw : w ≠ []) (ha : a ≠ [])
    (hdata : c.configData = []) (hno : ∀ d p, ¬ ConfigFile c.host.stat d p) (ht : TreeOK (c.tree (absClean c.wd a)))
    (hread : Readable (c.tree (absClean c.wd a)))
    (hplain : ∀ p, ToBeFound c (absClean c.wd w) (absClean c.wd a) [] p → PlainlyBelow p (absClean c.wd w)) :
    ∃ ps, getForDirOf c o w a = .ok ps ∧ ps.config.dirPath = absClean c.wd w := by
  have hwa := absClean_isAbsPath hwd hw
  have hda := absClean_isAbsPath hwd ha
  have find : ∀ {e : Str}, IsAbsPath e → getFilePathForDirOf c.host e = some (.ok []) := by
    intro e he
    obtain ⟨r, hr, ho⟩ := getFilePathForDirOf_outcome c.host (isAbs_of_isAbsPath he)
    rw [clean_of_isAbsPath he] at ho
    rcases ho with ⟨p, dd, rfl, _, _, hp, _⟩ | ⟨rfl, _⟩ | ⟨er, dd, p, q, rfl, _, h1, _⟩
    · exact absurd hp (hno _ _)
    · exact hr
    · exact absurd h1 (hno _ _)
  have hone : OneConfigEach c.host.stat := fun d p q h => absurd h (hno _ _)
  have hvalid : ConfigsValid c (absClean c.wd a) := fun d p _ h => absurd h (hno _ _)
  obtain ⟨cfg, hcfg, hdir⟩ := default_accepted c.sort c.host c.develMode (absClean c.wd w)
  have hget : getForDir c.sort c.host c.develMode (absClean c.wd w) = some (.ok cfg) := by
    unfold getForDir
    rw [find hwa]
    simp only [if_true, hcfg]
  have hbelow : ExcludesBelow (getExcludePrefixesForDir c.host) := by
    intro d es e hd hes he
    obtain ⟨cs, hcs, rfl⟩ := hd
    rcases single_cases c.host hcs with ⟨_, _, _, h, _⟩ | ⟨h, _⟩ | ⟨_, _, _, _, h, _⟩
    · exact absurd h (hno _ _)
    · unfold getExcludePrefixesForDir at hes
      rw [isAbs_absPath, clean_absPath hcs, h] at hes
      simp only [Bool.not_true, Bool.false_eq_true, if_false, if_true] at hes
      injection hes with hes
      subst hes
      cases he
    · exact absurd h (hno _ _)
  have hroot : walkRoot c (absClean c.wd w) (absClean c.wd a) = .ok (absClean c.wd a) := by
    unfold walkRoot
    rw [if_pos hdata, find hda]
    rfl
  have hD : dataExcludes c (absClean c.wd w) = .ok [] := by
    unfold dataExcludes
    rw [if_neg (by simp [hdata])]
  obtain ⟨fs, hfs⟩ := walkAll_ok (c := walkConfig c (absClean c.wd w) (absClean c.wd a)) (D := []) (fun _ => hbelow)
    (fun _ => rfl) hda ht hread (fun _ e he => excludes_of_valid hone hvalid he)
  obtain ⟨_, _, hmem⟩ := walkAll_spec (c := walkConfig c (absClean c.wd w) (absClean c.wd a)) (fun _ => hbelow)
    (fun _ => rfl) hda ht hfs
  have hplain' : ∀ f ∈ fs, PlainlyBelow f.path (absClean c.wd w) := fun f hf =>
    hplain _ ((hmem f.path).1 (List.mem_map.2 ⟨f, hf, rfl⟩))
  have hbase : defaultBaseSet c (absClean c.wd w) = .ok ([], cfg) := by
    unfold defaultBaseSet
    rw [if_pos hdata, hget]
  obtain ⟨ps, hps, hc, hc'⟩ := discovery_ok o (k := []) (cfg := cfg) hroot hD hfs (fun _ => ⟨_, hbase⟩)
    (by
      intro f hf
      have habs : IsAbsPath (Path.dir f.path) := by
        obtain ⟨cs, name, rest, hc, _, e, _⟩ := hplain' f hf
        obtain ⟨as, x, e'⟩ : ∃ as x, cs ++ name :: rest = as ++ [x] :=
          ⟨_, _, (List.dropLast_concat_getLast (by simp)).symm⟩
        rw [e'] at hc e
        rw [e, dir_isAbsPath hc]
        exact ⟨as, fun y hy => hc y (by simp [hy]), rfl⟩
      unfold configFor
      rw [if_pos hdata, find habs]
      dsimp only
      rw [if_neg (by simp), hget])
    (fun f hf => by
      rw [hdir]
      exact validateIsRel_below (hplain' f hf))
  refine ⟨ps, hps, ?_⟩
  rw [← hdir]
  by_cases hn : fs = []
  · rw [hc' _ hn hbase]
  · rw [hc hn]

/-! ## Concrete cases -/

/-- A directory `/w` with a configuration file and one more file. -/
def oneFileProvider (name : Str) : Provider :=
  { host :=
      { stat := fun p => decide (p = s%"/w/prototool.yaml")
        readFile := fun p => if p = s%"/w/prototool.yaml" then .ok p else .error []
        parseYAML := fun _ => .ok {} }
    sort := SortSlice.stable
    develMode := false
    configData := []
    wd := s%"/w"
    tree := fun _ => .dir [(name, .file)] }

theorem treeOK_oneFile {name : Str} (hn : Component name) : TreeOK (.dir [(name, .file)]) := by
  rintro ds entries h
  cases ds with
  | nil =>
    injection h with h
    injection h with h
    subst h
    exact ⟨by simp, fun e he => by rw [List.mem_singleton.1 he]; exact hn⟩
  | cons x xs =>
    obtain ⟨node, hm, hx⟩ := (nodeAt_dir_cons (by simp) x xs).1 h
    rw [List.mem_singleton] at hm
    injection hm with h1 h2
    subst h2
    cases xs <;> cases hx

theorem readable_oneFile {name : Str} : Readable (.dir [(name, .file)]) := by
  rintro ds node h
  cases ds with
  | nil =>
    injection h with h
    subst h
    exact .inr ⟨_, rfl⟩
  | cons x xs =>
    obtain ⟨node, hm, hx⟩ := (nodeAt_dir_cons (by simp) x xs).1 h
    rw [List.mem_singleton] at hm
    injection hm with h1 h2
    subst h2
    cases xs with
    | nil => injection hx with hx; exact .inl hx.symm
    | cons y ys => cases hx

theorem oneFile_in {name root p : Str} (h : ProtoFileIn root (.dir [(name, .file)]) p) :
    ∃ rs, Components rs ∧ root = absPath rs ∧ p = absPath (rs ++ [name]) := by
  obtain ⟨rs, ds, q, hrs, e1, e2, hf, _⟩ := h
  cases ds with
  | nil => cases hf
  | cons x xs =>
    obtain ⟨node, hm, hx⟩ := (nodeAt_dir_cons (by simp) x xs).1 hf
    rw [List.mem_singleton] at hm
    injection hm with h1 h2
    subst h1 h2
    cases xs with
    | nil => exact ⟨rs, hrs, e1, e2⟩
    | cons y ys => cases hx

/-- All that C114 asks of `oneFileProvider`, except for the name. -/
theorem oneFile_meets (name : Str) (hn : Component name) :
    let c := oneFileProvider name
    IsAbsPath c.wd ∧ NearestConfig c.host.stat (absClean c.wd s%".") s%"/w" ∧ TreeOK (c.tree s%"/w") ∧
    ExcludesBelow (getExcludePrefixesForDir c.host) ∧ OneConfigEach c.host.stat ∧ ConfigsValid c s%"/w" ∧
    Readable (c.tree s%"/w") ∧
    (∀ p dir, ToBeFound c (absClean c.wd s%".") s%"/w" [] p → EntryOf p dir → NearestConfig c.host.stat dir s%"/w") ∧
    (∃ k, getForDir c.sort c.host c.develMode (absClean c.wd s%".") = some (.ok k)) := by
  have hw : Components [s%"w"] := by unfold Components Component; decide
  have hy : Components [s%"w", s%"prototool.yaml"] := by unfold Components Component; decide
  have hcf : ∀ d p, ConfigFile (oneFileProvider name).host.stat d p → d = s%"/w" ∧ p = s%"/w/prototool.yaml" := by
    rintro d p ⟨cs, nm, hcs, hnm, rfl, rfl, hs⟩
    have e : absPath (cs ++ [nm]) = absPath ([s%"w"] ++ [s%"prototool.yaml"]) := of_decide_eq_true hs
    have hc : Components (cs ++ [nm]) := by
      rcases hnm with rfl | rfl
      · exact components_snoc hcs component_yaml
      · exact components_snoc hcs component_json
    have : cs ++ [nm] = [s%"w"] ++ [s%"prototool.yaml"] := absPath_inj hc hy e
    obtain ⟨h1, h2⟩ := List.append_inj' this (by simp)
    subst h1
    exact ⟨rfl, e⟩
  have hthere : ConfigFile (oneFileProvider name).host.stat s%"/w" s%"/w/prototool.yaml" :=
    ⟨[s%"w"], s%"prototool.yaml", hw, .inl rfl, rfl, rfl, rfl⟩
  have hwa : IsAbsPath s%"/w" := ⟨[s%"w"], hw, rfl⟩
  have hnear : NearestConfig (oneFileProvider name).host.stat s%"/w" s%"/w" := by
    refine ⟨within_refl hwa, ⟨_, hthere⟩, fun d' _ hb p hp => ?_⟩
    rw [(hcf _ _ hp).1] at hb
    obtain ⟨cs, ds, hc, hds, h1, h2⟩ := hb
    have := congrArg List.length (absPath_inj (components_append.1 hc).1 hc (h1.symm.trans h2))
    exact hds (List.length_eq_zero_iff.1 (by simpa using this))
  have hab : absClean (oneFileProvider name).wd s%"." = s%"/w" := by show absClean s%"/w" s%"." = s%"/w"; decide
  dsimp only
  rw [hab]
  refine ⟨hwa, hnear, treeOK_oneFile hn, ?_, ?_, ?_, readable_oneFile, ?_, ⟨_, rfl⟩⟩
  · apply C21_excludes_below
    intro f e h x hx
    unfold getExternalConfig at h
    have : e.excludes = [] := by
      by_cases hf : f = s%"/w/prototool.yaml"
      · subst hf
        injection h with h
        rw [← h]
      · simp only [oneFileProvider] at h
        rw [if_neg hf] at h
        cases h
    rw [this] at hx
    cases hx
  · intro d p q h1 h2
    rw [(hcf _ _ h1).2, (hcf _ _ h2).2]
  · intro d p _ h
    rw [(hcf _ _ h).2]
    exact ⟨_, rfl⟩
  · intro p dir hp hen
    obtain ⟨rs, hrs, e1, e2⟩ := oneFile_in hp.1
    obtain ⟨as, x, hax, rfl, e3⟩ := hen
    have hc2 : Components (rs ++ [name]) := components_snoc hrs hn
    have := absPath_inj hax hc2 (e3.symm.trans e2)
    obtain ⟨h1, h2⟩ := List.append_inj' this rfl
    rw [h1, ← e1]
    exact hnear

/-- Non-vacuity of `C114_configured_partial`. -/
example : ∃ ps, getForDirOf (oneFileProvider s%"x.proto") Order.rev s%"." s%"." = .ok ps := by
  have hn : Component s%"x.proto" := by unfold Component; decide
  obtain ⟨h1, h2, h3, h4, h5, h6, h7, h8, h9⟩ := oneFile_meets s%"x.proto" hn
  exact C114_configured_partial _ _ _ _ s%"/w" h1 (by simp) (by simp) rfl h2 h3 h4 h5 h6 h7
    ⟨_, rfl, fun e he => by rw [List.mem_singleton.1 he]; decide⟩ h8 (.inr h9)

/-- C114 does not hold for every tree: a name that starts with two dots, directly in the directory of the configuration
file, is enough to make discovery fail, although the file is there, can be read and is governed by that configuration. -/
theorem C114_not_dots : ∃ (c : Provider) (o : Order) (w a d : Str), IsAbsPath c.wd ∧ w ≠ [] ∧ a ≠ [] ∧
    c.configData = [] ∧ NearestConfig c.host.stat (absClean c.wd a) d ∧ TreeOK (c.tree d) ∧
    ExcludesBelow (getExcludePrefixesForDir c.host) ∧ OneConfigEach c.host.stat ∧ ConfigsValid c d ∧
    Readable (c.tree d) ∧
    (∀ p dir, ToBeFound c (absClean c.wd w) d [] p → EntryOf p dir → NearestConfig c.host.stat dir d) ∧
    (∃ k, getForDir c.sort c.host c.develMode (absClean c.wd w) = some (.ok k)) ∧
    ∃ e, getForDirOf c o w a = .error e := by
  have hn : Component s%"..x.proto" := by unfold Component; decide
  obtain ⟨h1, h2, h3, h4, h5, h6, h7, h8, h9⟩ := oneFile_meets s%"..x.proto" hn
  exact ⟨oneFileProvider s%"..x.proto", Order.id, s%".", s%".", s%"/w", h1, by simp, by simp, rfl, h2, h3, h4, h5, h6, h7,
    h8, h9, _, rfl⟩

/-- No configuration file anywhere, and one file in every directory asked for. -/
def unconfiguredProvider : Provider :=
  { oneFileProvider s%"x.proto" with host := { (oneFileProvider []).host with stat := fun _ => false } }

theorem unconfigured_no (d p : Str) : ¬ ConfigFile unconfiguredProvider.host.stat d p := by
  rintro ⟨_, _, _, _, _, _, h⟩
  cases h

/-- Non-vacuity of `C114_none_partial`. -/
example : ∃ ps, getForDirOf unconfiguredProvider Order.rev s%"." s%"a" = .ok ps ∧ ps.config.dirPath = s%"/w" := by
  have hn : Component s%"x.proto" := by unfold Component; decide
  have hw : absClean unconfiguredProvider.wd s%"." = s%"/w" := by decide
  have ha : absClean unconfiguredProvider.wd s%"a" = s%"/w/a" := by decide
  have := C114_none_partial unconfiguredProvider Order.rev s%"." s%"a"
    ⟨[s%"w"], by unfold Components Component; decide, rfl⟩ (by simp) (by simp) rfl unconfigured_no (treeOK_oneFile hn)
    readable_oneFile (by
      intro p hp
      obtain ⟨rs, hrs, e1, rfl⟩ := oneFile_in hp.1
      rw [ha] at e1
      have hwa : Components [s%"w", s%"a"] := by unfold Components Component; decide
      have := absPath_inj hwa hrs e1
      subst this
      rw [hw]
      exact ⟨[s%"w"], s%"a", [s%"x.proto"], by unfold Components Component; decide, rfl, rfl, by decide⟩)
  rwa [hw] at this

/-- C114 does not hold for every directory: with no configuration file, files outside the working directory cannot be
found, although they are there and can be read. -/
theorem C114_not_outside : ∃ (c : Provider) (o : Order) (w a : Str), IsAbsPath c.wd ∧ w ≠ [] ∧ a ≠ [] ∧
    c.configData = [] ∧ (∀ d p, ¬ ConfigFile c.host.stat d p) ∧ TreeOK (c.tree (absClean c.wd a)) ∧
    Readable (c.tree (absClean c.wd a)) ∧ PlainNames (c.tree (absClean c.wd a)) ∧
    ∃ e, getForDirOf c o w a = .error e := by
  have hn : Component s%"x.proto" := by unfold Component; decide
  exact ⟨unconfiguredProvider, Order.id, s%".", s%"../v", ⟨[s%"w"], by unfold Components Component; decide, rfl⟩, by simp,
    by simp, rfl, unconfigured_no, treeOK_oneFile hn, readable_oneFile,
    ⟨_, rfl, fun e he => by rw [List.mem_singleton.1 he]; decide⟩, _, rfl⟩

/-- The configuration is given on the command line. -/
def dataProvider : Provider :=
  { unconfiguredProvider with
    configData := s%"{\"excludes\":[\"b\"]}"
    tree := fun _ => .dir [(s%"x.proto", .file), (s%"b", .dir [(s%"y.proto", .file)])] }

/-- Non-vacuity of `C114_data_partial`. -/
example : ∃ ps, getForDirOf dataProvider Order.rev s%"." s%"." = .ok ps ∧
    ps.dirPathToFiles.map (fun x => (x.1, x.2.map (·.path))) = [(s%"/w", [s%"/w/x.proto"])] ∧
    ps.config.excludePrefixes = [s%"/w/b"] := ⟨_, rfl, rfl, rfl⟩

example : ∃ ps, getForDirOf dataProvider Order.rev s%"." s%"." = .ok ps := by
  have hx : Component s%"x.proto" := by unfold Component; decide
  have hb : Component s%"b" := by unfold Component; decide
  have hy : Component s%"y.proto" := by unfold Component; decide
  have ht : TreeOK (dataProvider.tree []) := by
    refine treeOK_dir (by decide) fun e he => ?_
    simp only [List.mem_cons, List.not_mem_nil, or_false] at he
    rcases he with rfl | rfl
    · exact ⟨hx, treeOK_file⟩
    · exact ⟨hb, treeOK_oneFile hy⟩
  obtain ⟨ps, h, _⟩ := C114_data_partial dataProvider Order.rev s%"." s%"."
    ⟨[s%"w"], by unfold Components Component; decide, rfl⟩ (by simp) (by simp [dataProvider]) _ rfl ht (by
      rintro ds node h
      cases ds with
      | nil => injection h with h; exact .inr ⟨_, h.symm⟩
      | cons a as =>
        obtain ⟨n, hm, hx⟩ := (nodeAt_dir_cons (by decide) a as).1 h
        simp only [List.mem_cons, List.not_mem_nil, or_false] at hm
        rcases hm with e | e
        · injection e with _ e
          subst e
          cases as with
          | nil => injection hx with hx; exact .inl hx.symm
          | cons => cases hx
        · injection e with _ e
          subst e
          exact readable_oneFile _ _ hx)
    ⟨_, rfl, fun e he => by
      simp only [List.mem_cons, List.not_mem_nil, or_false] at he
      rcases he with rfl | rfl <;> decide⟩
  exact ⟨ps, h⟩

end Verif.Props
