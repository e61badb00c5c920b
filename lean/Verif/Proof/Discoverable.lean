import Verif.Proof.DiscoveryOrder
import Verif.Spec.Discoverable

/-!
# Discovery succeeds
-/

namespace Verif.File

open Verif Str Path Spec Settings

theorem join_head_prefix {name : Str} {rest : List Str} : name <+: join s%"/" (name :: rest) := by
  cases rest with
  | nil => exact List.prefix_rfl
  | cons x xs => exact ⟨'/' :: join s%"/" (x :: xs), by simp [join]⟩

theorem prefix_dots {name : Str} {rest : List Str} (hs : '/' ∉ name) (h : s%".." <+: join s%"/" (name :: rest)) :
    s%".." <+: name := by
  have hj : join s%"/" (name :: rest) = name ∨ ∃ t, join s%"/" (name :: rest) = name ++ '/' :: t := by
    cases rest with
    | nil => exact .inl rfl
    | cons x xs =>
      right
      exact ⟨join s%"/" (x :: xs), by simp [join]⟩
  rcases hj with e | ⟨t, e⟩
  · rwa [e] at h
  · rw [e] at h
    rcases name with _ | ⟨a, _ | ⟨b, name⟩⟩
    · obtain ⟨u, hu⟩ := h
      simp at hu
    · obtain ⟨u, hu⟩ := h
      simp at hu
    · obtain ⟨u, hu⟩ := h
      simp at hu
      exact ⟨name, by rw [← hu.1, ← hu.2.1]; rfl⟩

theorem validateIsRel_below {p d : Str} (h : PlainlyBelow p d) : validateIsRel d p = .ok () := by
  obtain ⟨cs, name, rest, hc, rfl, rfl, hn⟩ := h
  have hname : Component name := hc name (by simp)
  unfold validateIsRel
  rw [rel_within hc (by simp)]
  dsimp only
  have hne : join s%"/" (name :: rest) ≠ [] := by
    intro e
    obtain ⟨t, ht⟩ := join_head_prefix (name := name) (rest := rest)
    rw [e] at ht
    exact hname.1 (List.append_eq_nil_iff.1 ht).1
  rw [if_neg hne, if_neg]
  intro h
  exact hn (prefix_dots hname.2.1 (List.isPrefixOf_iff_prefix.1 h))

theorem validateFiles_ok {cd d : Str} {fs : List ProtoFile} (h : ∀ f ∈ fs, Path.dir f.path = d ∧ validateIsRel cd f.path = .ok ()) :
    validateFiles cd d fs = .ok () := by
  induction fs with
  | nil => rfl
  | cons f fs ih =>
    rw [validateFiles, if_neg (by simp [(h f (by simp)).1]), (h f (by simp)).2]
    exact ih fun g hg => h g (by simp [hg])

/-- A discovery with all its stages. -/
theorem discovery_ok {c : Provider} (o : Order) {w a root : Str} {D : List Str} {fs : List ProtoFile} {k : Str}
    {cfg : Config} (h1 : walkRoot c (absClean c.wd w) (absClean c.wd a) = .ok root)
    (h2 : dataExcludes c (absClean c.wd w) = .ok D)
    (h3 : walkAll (walkConfig c (absClean c.wd w) root) (c.tree root) D = .ok fs)
    (hdef : fs = [] → ∃ b, defaultBaseSet c (absClean c.wd w) = .ok b)
    (hcfg : ∀ f ∈ fs, configFor c (absClean c.wd w) (Path.dir f.path) = .ok (k, cfg))
    (hval : ∀ f ∈ fs, validateIsRel cfg.dirPath f.path = .ok ()) :
    ∃ ps, getForDirOf c o w a = .ok ps ∧ (fs ≠ [] → ps.config = cfg) ∧
      (∀ b, fs = [] → defaultBaseSet c (absClean c.wd w) = .ok b → ps.config = b.2) := by
  have hw : walkAndGetAllProtoFiles c (absClean c.wd w) root = .ok fs := by
    unfold walkAndGetAllProtoFiles
    rw [h2]
    exact h3
  by_cases hfs : fs = []
  · subst hfs
    obtain ⟨b, hb⟩ := hdef rfl
    have hb1 : b.1 = [] := by
      unfold defaultBaseSet at hb
      split at hb
      · split at hb
        · cases hb
        · cases hb
        · injection hb with hb; subst hb; rfl
      · split at hb
        · cases hb
        · injection hb with hb; subst hb; rfl
    refine ⟨_, getForDirOf_iff.2 ⟨root, [], b, h1, hw, ?_, ?_, rfl⟩, fun h => absurd rfl h, ?_⟩
    · unfold getBaseProtoSets getDirPathToProtoFiles
      rw [if_pos (by rfl), hb]
    · rw [hb1]
      intro p hp
      cases hp
    · intro b' _ hb'
      rw [hb] at hb'
      injection hb' with hb'
      rw [hb']
  · have hmem : ∀ x ∈ getDirPathToProtoFiles fs, x.2 = fs.filter (fun f => Path.dir f.path = x.1) ∧ x.2 ≠ [] := by
      intro x hx
      have := GoMap.get?_of_mem (group_nodup fs) (k := x.1) (v := x.2) hx
      rw [group_get?] at this
      split at this
      · cases this
      · rename_i hne
        injection this with this
        rw [← this]
        exact ⟨rfl, hne⟩
    have hm : getDirPathToProtoFiles fs ≠ [] := by
      intro e
      obtain ⟨f, hf⟩ := List.exists_mem_of_ne_nil _ hfs
      have := group_get? fs (Path.dir f.path)
      rw [e, GoMap.get?_nil, if_neg] at this
      · cases this
      · exact List.ne_nil_of_mem (List.mem_filter.2 ⟨hf, by simp⟩)
    obtain ⟨b, hb, hperm, hc⟩ := getBaseProtoSets_of_uniform (c := c) (o' := o) (w := absClean c.wd w) (k := k) (cfg := cfg)
      (group_nodup fs) hm (by
        intro x hx
        obtain ⟨e, hne⟩ := hmem x hx
        obtain ⟨f, hf⟩ := List.exists_mem_of_ne_nil _ hne
        rw [e, List.mem_filter] at hf
        have : Path.dir f.path = x.1 := by simpa using hf.2
        rw [← this]
        exact hcfg f hf.1)
    refine ⟨_, getForDirOf_iff.2 ⟨root, fs, b, h1, hw, hb, ?_, rfl⟩, fun _ => hc, fun _ h => absurd h hfs⟩
    intro p hp
    obtain ⟨e, _⟩ := hmem p (hperm.mem_iff.1 hp)
    rw [hc]
    apply validateFiles_ok
    intro f hf
    rw [e, List.mem_filter] at hf
    exact ⟨by simpa using hf.2, hval f hf.1⟩

/-- Excludes of an accepted configuration are in order. -/
theorem excludes_of_valid {c : Provider} {root : Str} (hone : OneConfigEach c.host.stat) (hv : ConfigsValid c root) {d : Str}
    (hd : Within d root) : ∃ es, getExcludePrefixesForDir c.host d = .ok es := by
  have habs := (within_isAbsPath hd).1
  have hcl := clean_of_isAbsPath habs
  have hia := isAbs_of_isAbsPath habs
  obtain ⟨cs, hcs, rfl⟩ := habs
  unfold getExcludePrefixesForDir
  rw [hia, hcl]
  simp only [Bool.not_true, Bool.false_eq_true, if_false]
  rcases single_cases c.host hcs with ⟨p, hp, hne, hcf, _⟩ | ⟨hp, hno⟩ | ⟨err, p, q, hp, h1, h2, h3⟩
  · rw [hp]
    simp only [if_neg hne]
    obtain ⟨k, hk⟩ := hv _ p hd hcf
    obtain ⟨cs', name, hcs', hname, e, rfl, _⟩ := hcf
    have := absPath_inj hcs hcs' e
    subst this
    have hcomp : Components (cs ++ [name]) := by
      rcases hname with rfl | rfl
      · exact components_snoc hcs component_yaml
      · exact components_snoc hcs component_json
    unfold getConfig at hk
    rw [isAbs_absPath, clean_absPath hcomp, dir_snoc hcomp] at hk
    simp only [Bool.not_true, Bool.false_eq_true, if_false] at hk
    cases he : getExternalConfig c.host (absPath (cs ++ [name])) with
    | error e => rw [he] at hk; cases hk
    | ok e =>
      rw [he] at hk
      unfold externalConfigToConfig at hk
      dsimp only at hk ⊢
      split at hk
      · cases hk
      · rename_i es hes
        exact ⟨es, hes⟩
  · rw [hp]
    exact ⟨_, rfl⟩
  · exact absurd (hone _ p q h1 h2) h3

/-- The default configuration is accepted. -/
theorem default_accepted (s : SortSlice) (h : Host) (develMode : Bool) (d : Str) :
    ∃ k, externalConfigToConfig s h develMode {} d = .ok k ∧ k.dirPath = d := by
  have hs : s.run (fun a b : GenPlugin => Str.lt a.name b.name) [] = [] := List.perm_nil.1 (s.perm _ _)
  have hx : externalConfigToConfig s h develMode {} d = finishConfig develMode {} d [] [] [] [] := by
    unfold externalConfigToConfig
    have : genPluginsOf d ({} : ExternalConfig).plugins = .ok [] := rfl
    rw [this]
    dsimp only
    rw [hs]
    rfl
  rw [hx]
  cases develMode
  · exact ⟨_, rfl, rfl⟩
  · exact ⟨_, rfl, rfl⟩

end Verif.File
