import Verif.Proof.Moved
import Verif.Proof.Walk

/-!
# A moved tree: configurations
-/

namespace Verif.Proof.Moved

open Verif Str Path Settings File Spec

variable {r r' : List Str} {h h' : Settings.Host}

theorem header (H : MovedHost r r' h h') {x : List Str} (hx : Components x) {e : ExternalConfig}
    (he : InTree x.length e.fileHeaderPath) {t : Str} (hh : fileHeaderOf h e (absPath (r ++ x)) = .ok t) :
    fileHeaderOf h' e (absPath (r' ++ x)) = .ok t := by
  have key : ∀ c, fileHeaderContentOf h e (absPath (r ++ x)) = .ok c →
      fileHeaderContentOf h' e (absPath (r' ++ x)) = .ok c := by
    intro c hc
    unfold fileHeaderContentOf at hc ⊢
    split at hc
    · rename_i h1
      rw [if_pos h1]
      rw [he.1] at hc ⊢
      simp only [Bool.false_eq_true, if_false] at hc ⊢
      have := H.read _ _ (join H.root H.root' hx he)
      rw [hc] at this
      cases hd : h'.readFile (joinPath [absPath (r' ++ x), e.fileHeaderPath]) with
      | error err => rw [hd] at this; exact this.elim
      | ok d => rw [hd] at this; exact congrArg _ this
    · rename_i h1
      rw [if_neg h1]
      exact hc
  unfold fileHeaderOf at hh ⊢
  split at hh
  · rename_i h1
    rw [if_pos h1]
    split at hh
    · cases hh
    · rename_i h2
      rw [if_neg h2]
      cases hc : fileHeaderContentOf h e (absPath (r ++ x)) with
      | error err => rw [hc] at hh; cases hh
      | ok c =>
        rw [hc] at hh
        rw [key c hc]
        exact hh
  · rename_i h1
    rw [if_neg h1]
    exact hh

theorem pointwise_mem_of {α β : Type} {R : α → β → Prop} {as : List α} {bs : List β} (hp : Pointwise R as bs)
    {b : β} (hb : b ∈ bs) : ∃ a ∈ as, R a b := pointwise_mem_right hp b hb

theorem config (H : MovedHost r r' h h') (s s' : SortSlice) {devel : Bool} {x : List Str} (hx : Components x)
    {e : ExternalConfig} (he : Portable x.length e) {c : Config}
    (hc : externalConfigToConfig s h devel e (absPath (r ++ x)) = .ok c) :
    ∃ c', externalConfigToConfig s' h' devel e (absPath (r' ++ x)) = .ok c' ∧ MovedConfig r r' c c' := by
  unfold externalConfigToConfig at hc ⊢
  cases h1 : getExcludePrefixes e.excludes (absPath (r ++ x)) with
  | error err => rw [h1] at hc; cases hc
  | ok es =>
    rw [h1] at hc
    dsimp only at hc
    obtain ⟨es', he1, he2⟩ := excludeLoop H.root H.root' hx (Strs.sortUniq e.excludes)
      (inTree_sortUniq he.excludes) h1
    rw [show getExcludePrefixes e.excludes (absPath (r' ++ x)) = .ok es' from he1]
    dsimp only
    cases h2 : genPluginsOf (absPath (r ++ x)) e.plugins with
    | error err => rw [h2] at hc; cases hc
    | ok gs =>
      rw [h2] at hc
      dsimp only at hc
      obtain ⟨gs', hg1, hg2⟩ := plugins H.root H.root' hx e.plugins he.outputs h2
      rw [hg1]
      dsimp only
      cases h3 : createPackagesOf (absPath (r ++ x)) e.createPackages [] with
      | error err => rw [h3] at hc; cases hc
      | ok pk =>
        rw [h3] at hc
        dsimp only at hc
        obtain ⟨pk', hp1, hp2⟩ := packages H.root H.root' hx e.createPackages he.packages .nil h3
        rw [hp1]
        dsimp only
        cases h4 : fileHeaderOf h e (absPath (r ++ x)) with
        | error err => rw [h4] at hc; cases hc
        | ok t =>
          rw [h4] at hc
          dsimp only at hc
          rw [header H hx he.header h4]
          dsimp only
          unfold finishConfig at hc ⊢
          split at hc
          · cases hc
          · rename_i h5
            rw [if_neg h5]
            dsimp only at hc ⊢
            have hperm := s.perm (fun a b : GenPlugin => Str.lt a.name b.name) gs
            have hperm' := s'.perm (fun a b : GenPlugin => Str.lt a.name b.name) gs'
            cases h6 : checkGenPlugins e.importPath (s.run (fun a b => Str.lt a.name b.name) gs) with
            | error err =>
              rw [show checkGenPlugins e.importPath (buildConfig e (absPath (r ++ x)) es
                (s.run (fun a b => Str.lt a.name b.name) gs) pk t).gen.plugins = .error err from h6] at hc
              cases hc
            | ok u =>
              rw [show checkGenPlugins e.importPath (buildConfig e (absPath (r ++ x)) es
                (s.run (fun a b => Str.lt a.name b.name) gs) pk t).gen.plugins = .ok () from h6] at hc
              have h6' : checkGenPlugins e.importPath (s'.run (fun a b => Str.lt a.name b.name) gs') = .ok () := by
                rw [checkGenPlugins_iff] at h6 ⊢
                intro g' hg'
                obtain ⟨g, hg, hgg⟩ := pointwise_mem_of hg2 (hperm'.mem_iff.1 hg')
                have := h6 g (hperm.mem_iff.2 hg)
                rw [hgg.same]
                exact this
              rw [show checkGenPlugins e.importPath (buildConfig e (absPath (r' ++ x)) es'
                (s'.run (fun a b => Str.lt a.name b.name) gs') pk' t).gen.plugins = .ok () from h6']
              dsimp only at hc ⊢
              split at hc
              · cases hc
              · rename_i h7
                injection hc with hc
                subst hc
                refine ⟨_, if_neg h7, ⟨of x hx, he2, rfl, includes H.root H.root' hx _ he.includes, hp2, rfl,
                  ignores H.root H.root' hx _ he.ignores, rfl, rfl, ?_⟩⟩
                obtain ⟨m, hm1, hm2⟩ := _root_.Verif.Lint.pointwise_perm (R := MovedPlugin r r') hperm.symm hg2
                exact ⟨m, hm2, hperm'.trans hm1.symm⟩

/-! ## Configuration files -/

theorem absPath_last (cs : List Str) (c : Str) : ∃ pre, absPath (cs ++ [c]) = pre ++ '/' :: c := by
  by_cases e : cs = []
  · subst e; exact ⟨[], absPath_single c⟩
  · exact ⟨absPath cs, absPath_snoc e⟩

theorem ext_last {cs ds : List Str} {c : Str} (hc : '/' ∉ c) : ext (absPath (cs ++ [c])) = ext (absPath (ds ++ [c])) := by
  have key : ∀ bs : List Str, (absPath (bs ++ [c])).reverse.takeWhile (· ≠ '/') = c.reverse := by
    intro bs
    obtain ⟨pre, e⟩ := absPath_last bs c
    rw [e, List.reverse_append, List.reverse_cons, List.append_assoc,
      takeWhile_append_of_all (fun a ha => by
        have ha := List.mem_reverse.1 ha
        simp only [ne_eq, decide_not, Bool.not_eq_eq_eq_not, Bool.not_true, decide_eq_false_iff_not]
        rintro rfl
        exact hc ha)]
    simp
  unfold ext
  rw [key, key]

theorem external (H : MovedHost r r' h h') {x : List Str} {name : Str} (hx : Components (x ++ [name]))
    {e : ExternalConfig} (he : getExternalConfig h (absPath (r ++ (x ++ [name]))) = .ok e) :
    getExternalConfig h' (absPath (r' ++ (x ++ [name]))) = .ok e := by
  unfold getExternalConfig at he ⊢
  have hn : '/' ∉ name := (hx name (by simp)).2.1
  have hext : ext (absPath (r' ++ (x ++ [name]))) = ext (absPath (r ++ (x ++ [name]))) := by
    rw [← List.append_assoc, ← List.append_assoc]
    exact ext_last hn
  have := H.read _ _ (of (r := r) (r' := r') (x ++ [name]) hx)
  cases hd : h.readFile (absPath (r ++ (x ++ [name]))) with
  | error err => rw [hd] at he; cases he
  | ok data =>
    rw [hd] at he this
    cases hd' : h'.readFile (absPath (r' ++ (x ++ [name]))) with
    | error err => rw [hd'] at this; exact this.elim
    | ok data' =>
      rw [hd'] at this
      have e' : data' = data := this
      subst e'
      rw [hext, H.yaml]
      dsimp only at he ⊢
      split at he
      · rename_i h1; rw [if_pos h1]; exact he
      · rename_i h1
        rw [if_neg h1]
        split at he
        · rename_i h2; rw [if_pos h2]; exact he
        · rename_i h2
          rw [if_neg h2]
          split at he
          · rename_i h3; rw [if_pos h3]; exact he
          · cases he

theorem hostSymm (H : MovedHost r r' h h') : MovedHost r' r h' h where
  root := H.root'
  root' := H.root
  stat p p' k := (H.stat _ _ (symm k)).symm
  read p p' k := by
    have := H.read _ _ (symm k)
    unfold SameResult at this ⊢
    split at this
    · rename_i h1 h2; rw [h1, h2]; trivial
    · rename_i h1 h2; rw [h1, h2]; exact this.symm
    · exact this.elim
  yaml := H.yaml.symm
  alone := H.alone'
  alone' := H.alone
  portable x name e hc he := by
    have H' : getExternalConfig h (absPath (r ++ (x ++ [name]))) = .ok e := by
      unfold getExternalConfig at he ⊢
      have hn : '/' ∉ name := (hc name (by simp)).2.1
      have hext : ext (absPath (r' ++ x ++ [name])) = ext (absPath (r ++ (x ++ [name]))) := by
        rw [← List.append_assoc]
        exact ext_last hn
      have := H.read _ _ (of (r := r) (r' := r') (x ++ [name]) hc)
      rw [← List.append_assoc] at this ⊢
      rw [← List.append_assoc] at this
      rw [← List.append_assoc] at hext
      cases hd : h'.readFile (absPath (r' ++ x ++ [name])) with
      | error err => rw [hd] at he; cases he
      | ok data =>
        rw [hd] at he this
        cases hd' : h.readFile (absPath (r ++ x ++ [name])) with
        | error err => rw [hd'] at this; exact this.elim
        | ok data' =>
          rw [hd'] at this
          have e' : data = data' := this
          subst e'
          rw [hext, H.yaml] at he
          dsimp only at he ⊢
          split at he
          · rename_i h1; rw [if_pos h1]; exact he
          · rename_i h1
            rw [if_neg h1]
            split at he
            · rename_i h2; rw [if_pos h2]; exact he
            · rename_i h2
              rw [if_neg h2]
              split at he
              · rename_i h3; rw [if_pos h3]; exact he
              · cases he
    exact H.portable x name e hc (by rw [List.append_assoc]; exact H')

/-- The names of configuration files. -/
def ConfigName (name : Str) : Prop := name = s%"prototool.yaml" ∨ name = s%"prototool.json"

theorem component_configName {name : Str} (hn : ConfigName name) : Component name := by
  rcases hn with rfl | rfl
  · exact component_yaml
  · exact component_json

theorem configFile_in (hr : Components r) {stat : Str → Bool} {y : List Str} (hy : Components y) {p : Str} :
    ConfigFile stat (absPath (r ++ y)) p ↔
      ∃ name, ConfigName name ∧ p = absPath (r ++ (y ++ [name])) ∧ stat p = true := by
  rw [configFile_iff (comps hr hy), List.append_assoc, List.append_assoc]
  constructor
  · rintro ⟨rfl | rfl, hs⟩
    · exact ⟨_, Or.inl rfl, rfl, hs⟩
    · exact ⟨_, Or.inr rfl, rfl, hs⟩
  · rintro ⟨name, rfl | rfl, rfl, hs⟩
    · exact ⟨Or.inl rfl, hs⟩
    · exact ⟨Or.inr rfl, hs⟩

theorem configFile_moved (H : MovedHost r r' h h') {y : List Str} (hy : Components y) {name : Str}
    (hn : ConfigName name) : ConfigFile h.stat (absPath (r ++ y)) (absPath (r ++ (y ++ [name]))) ↔
      ConfigFile h'.stat (absPath (r' ++ y)) (absPath (r' ++ (y ++ [name]))) := by
  have hc := components_snoc hy (component_configName hn)
  rw [configFile_in H.root hy, configFile_in H.root' hy]
  have hs := H.stat _ _ (of (r := r) (r' := r') _ hc)
  constructor
  · rintro ⟨_, _, _, h3⟩
    exact ⟨name, hn, rfl, by rw [hs]; exact h3⟩
  · rintro ⟨_, _, _, h3⟩
    exact ⟨name, hn, rfl, by rw [← hs]; exact h3⟩

theorem noConfig_moved (H : MovedHost r r' h h') {y : List Str} (hy : Components y)
    (hn : NoConfig h.stat (absPath (r ++ y))) : NoConfig h'.stat (absPath (r' ++ y)) := by
  intro p hp
  obtain ⟨name, h1, rfl, h3⟩ := (configFile_in H.root' hy).1 hp
  exact hn _ ((configFile_moved H hy h1).2 hp)

theorem nearest_inside (hr : Components r) {stat : Str → Bool} (ha : Alone stat r) {x : List Str}
    (hx : Components x) {d : Str} (hn : NearestConfig stat (absPath (r ++ x)) d) :
    ∃ y, Components y ∧ y <+: x ∧ d = absPath (r ++ y) := by
  obtain ⟨_, ds, hd, rfl⟩ := within_isAbsPath hn.1
  have hp := (Path.within_iff (comps hr hx) hd).1 hn.1
  by_cases hrd : r <+: ds
  · obtain ⟨y, rfl⟩ := hrd
    exact ⟨y, (components_append.1 hd).2, (List.prefix_append_right_inj r).1 hp, rfl⟩
  · exfalso
    have hdr : ds <+: r := by
      rcases List.prefix_or_prefix_of_prefix hp (List.prefix_append r x) with g | g
      · exact g
      · exact absurd g hrd
    have hb : Below (absPath r) (absPath ds) := (Path.below_iff hr hd).2 ⟨hdr, fun e => hrd (by rw [e]; exact List.prefix_refl _)⟩
    rcases ha with ⟨p, hp⟩ | hno
    · exact hn.2.2 _ ((Path.within_iff (comps hr hx) hr).2 (List.prefix_append r x)) hb p hp
    · obtain ⟨p, hp⟩ := hn.2.1
      exact hno _ hb p hp

theorem nearest_moved (H : MovedHost r r' h h') {x y : List Str} (hx : Components x) (hy : Components y)
    (hn : NearestConfig h.stat (absPath (r ++ x)) (absPath (r ++ y))) :
    NearestConfig h'.stat (absPath (r' ++ x)) (absPath (r' ++ y)) := by
  refine ⟨(within_iff H.root H.root' (of x hx) (of y hy)).1 hn.1, ?_, fun d' h1 h2 => ?_⟩
  · obtain ⟨p, hp⟩ := hn.2.1
    obtain ⟨name, k1, rfl, _⟩ := (configFile_in H.root hy).1 hp
    exact ⟨_, (configFile_moved H hy k1).1 hp⟩
  · obtain ⟨⟨ds, hd, rfl⟩, _⟩ := below_isAbsPath h2
    obtain ⟨z, rfl⟩ := ((Path.below_iff hd (comps H.root' hy)).1 h2).1
    have hyz : Components (y ++ z) := by rw [List.append_assoc] at hd; exact (components_append.1 hd).2
    rw [List.append_assoc] at h1 h2 ⊢
    exact noConfig_moved H hyz (hn.2.2 _ ((within_iff H.root H.root' (of x hx) (of _ hyz)).2 h1)
      ((below_iff H.root H.root' (of _ hyz) (of y hy)).2 h2))

/-- The configuration file of a directory of the tree. -/
theorem filePath (H : MovedHost r r' h h') {x : List Str} (hx : Components x) {p : Str}
    (hp : getFilePathForDirOf h (absPath (r ++ x)) = some (.ok p)) :
    (p = [] ∧ getFilePathForDirOf h' (absPath (r' ++ x)) = some (.ok [])) ∨
    ∃ y name, Components (y ++ [name]) ∧ p = absPath (r ++ (y ++ [name])) ∧
      getFilePathForDirOf h' (absPath (r' ++ x)) = some (.ok (absPath (r' ++ (y ++ [name])))) := by
  obtain ⟨q, hq, ho⟩ := getFilePathForDirOf_outcome h (isAbs_absPath (r ++ x))
  obtain ⟨q', hq', ho'⟩ := getFilePathForDirOf_outcome h' (isAbs_absPath (r' ++ x))
  rw [hp] at hq
  injection hq with hq
  subst hq
  rw [clean_absPath (comps H.root hx)] at ho
  rw [clean_absPath (comps H.root' hx)] at ho'
  rw [hq']
  have H' := hostSymm H
  rcases ho with ⟨p0, d, e, hne, hn, hc, hu⟩ | ⟨e, hno⟩ | ⟨_, _, _, _, e, _⟩
  · injection e with e
    subst e
    obtain ⟨y, hy, _, rfl⟩ := nearest_inside H.root H.alone hx hn
    obtain ⟨name, k1, rfl, _⟩ := (configFile_in H.root hy).1 hc
    have hn' := nearest_moved H hx hy hn
    have hc' := (configFile_moved H hy k1).1 hc
    have huniq : ∀ q, ConfigFile h'.stat (absPath (r' ++ y)) q → q = absPath (r' ++ (y ++ [name])) := by
      intro q hq
      obtain ⟨name', k2, rfl, _⟩ := (configFile_in H.root' hy).1 hq
      have := hu _ ((configFile_moved H hy k2).2 hq)
      have := rel_inj H.root (components_snoc hy (component_configName k2))
        (components_snoc hy (component_configName k1)) this
      rw [this]
    refine Or.inr ⟨y, name, components_snoc hy (component_configName k1), rfl, ?_⟩
    rcases ho' with ⟨p1, d1, e1, _, hn1, hc1, _⟩ | ⟨e1, hno⟩ | ⟨_, d1, a, b, e1, hn1, hca, hcb, hab⟩
    · have := nearest_unique hn1 hn'
      subst this
      rw [e1, huniq _ hc1]
    · exact absurd hc' (hno _ hn'.1 _)
    · have := nearest_unique hn1 hn'
      subst this
      exact absurd ((huniq a hca).trans (huniq b hcb).symm) hab
  · injection e with e
    refine Or.inl ⟨e, ?_⟩
    have bad : ∀ d1, ¬ NearestConfig h'.stat (absPath (r' ++ x)) d1 := by
      intro d1 hn1
      obtain ⟨y, hy, _, rfl⟩ := nearest_inside H.root' H.alone' hx hn1
      have := nearest_moved H' hx hy hn1
      obtain ⟨p1, hp1⟩ := this.2.1
      exact hno _ this.1 _ hp1
    rcases ho' with ⟨p1, d1, e1, _, hn1, _⟩ | ⟨e1, _⟩ | ⟨_, d1, _, _, e1, hn1, _⟩
    · exact absurd hn1 (bad _)
    · rw [e1]
    · exact absurd hn1 (bad _)
  · cases e

theorem portable_default (n : Nat) : Portable n {} :=
  ⟨by simp, by simp, by simp, by simp, by simp, rfl, by simp [splitChar, stays]⟩

theorem fileConfig (H : MovedHost r r' h h') (s s' : SortSlice) {devel : Bool} {y : List Str} {name : Str}
    (hy : Components (y ++ [name])) {c : Config}
    (hc : getConfig s h devel (absPath (r ++ (y ++ [name]))) = .ok c) :
    ∃ c', getConfig s' h' devel (absPath (r' ++ (y ++ [name]))) = .ok c' ∧ MovedConfig r r' c c' := by
  unfold getConfig at hc ⊢
  have hc1 := comps H.root hy
  have hc2 := comps H.root' hy
  rw [isAbs_absPath, clean_absPath hc1] at hc
  rw [isAbs_absPath, clean_absPath hc2]
  simp only [Bool.not_true, Bool.false_eq_true, if_false] at hc ⊢
  cases he : getExternalConfig h (absPath (r ++ (y ++ [name]))) with
  | error err => rw [he] at hc; cases hc
  | ok e =>
    rw [he] at hc
    rw [external H hy he]
    dsimp only at hc ⊢
    rw [← List.append_assoc] at hc1 hc2 hc ⊢
    rw [dir_snoc hc1] at hc
    rw [dir_snoc hc2]
    exact config H s s' (components_append.1 hy).1 (H.portable y name e hy (by rw [List.append_assoc]; exact he)) hc

theorem dirConfig (H : MovedHost r r' h h') (s s' : SortSlice) {devel : Bool} {x : List Str} (hx : Components x)
    {c : Config} (hc : getForDir s h devel (absPath (r ++ x)) = some (.ok c)) :
    ∃ c', getForDir s' h' devel (absPath (r' ++ x)) = some (.ok c') ∧ MovedConfig r r' c c' := by
  unfold getForDir at hc ⊢
  cases hp : getFilePathForDirOf h (absPath (r ++ x)) with
  | none => rw [hp] at hc; cases hc
  | some q =>
    cases q with
    | error err => rw [hp] at hc; cases hc
    | ok p =>
      rw [hp] at hc
      dsimp only at hc
      rcases filePath H hx hp with ⟨rfl, e⟩ | ⟨y, name, hy, rfl, e⟩
      · rw [e]
        rw [if_pos rfl] at hc
        injection hc with hc
        obtain ⟨c', h1, h2⟩ := config H s s' hx (portable_default _) hc
        exact ⟨c', by dsimp only; rw [if_pos rfl, h1], h2⟩
      · rw [e]
        rw [if_neg (absPath_ne_empty _)] at hc
        injection hc with hc
        obtain ⟨c', h1, h2⟩ := fileConfig H s s' hy hc
        exact ⟨c', by dsimp only; rw [if_neg (absPath_ne_empty _), h1], h2⟩

theorem dataConfig (H : MovedHost r r' h h') (s s' : SortSlice) {devel : Bool} {x : List Str} (hx : Components x)
    {data : Str} (hdata : ∀ e, jsonUnmarshalStrict data = .ok e → Portable x.length e) {c : Config}
    (hc : getForData s h devel (absPath (r ++ x)) data = .ok c) :
    ∃ c', getForData s' h' devel (absPath (r' ++ x)) data = .ok c' ∧ MovedConfig r r' c c' := by
  unfold getForData at hc ⊢
  rw [isAbs_absPath, clean_absPath (comps H.root hx)] at hc
  rw [isAbs_absPath, clean_absPath (comps H.root' hx)]
  simp only [Bool.not_true, Bool.false_eq_true, if_false] at hc ⊢
  cases he : jsonUnmarshalStrict data with
  | error err => rw [he] at hc; cases hc
  | ok e =>
    rw [he] at hc
    exact config H s s' hx (hdata e he) hc

theorem single (H : MovedHost r r' h h') {x : List Str} (hx : Components x) {p : Str}
    (hp : getSingleFilePathForDir h (absPath (r ++ x)) = .ok p) :
    (p = [] ∧ getSingleFilePathForDir h' (absPath (r' ++ x)) = .ok []) ∨
    ∃ name, ConfigName name ∧ p = absPath (r ++ (x ++ [name])) ∧
      getSingleFilePathForDir h' (absPath (r' ++ x)) = .ok (absPath (r' ++ (x ++ [name]))) := by
  have key : ∀ (s : List Str) (g : Settings.Host), Components s →
      (configFilenames.map fun n => joinPath [absPath (s ++ x), n]).filter g.stat =
        (configFilenames.filter fun n => g.stat (absPath (s ++ (x ++ [n])))).map
          fun n => absPath (s ++ (x ++ [n])) := by
    intro s g hs
    have hy : joinPath [absPath (s ++ x), s%"prototool.yaml"] = absPath (s ++ (x ++ [s%"prototool.yaml"])) := by
      rw [joinPath_component (components_snoc (comps hs hx) component_yaml), List.append_assoc]
    have hj : joinPath [absPath (s ++ x), s%"prototool.json"] = absPath (s ++ (x ++ [s%"prototool.json"])) := by
      rw [joinPath_component (components_snoc (comps hs hx) component_json), List.append_assoc]
    unfold configFilenames
    rw [List.map_cons, List.map_cons, List.map_nil, hy, hj]
    cases h1 : g.stat (absPath (s ++ (x ++ [s%"prototool.yaml"]))) <;>
      cases h2 : g.stat (absPath (s ++ (x ++ [s%"prototool.json"]))) <;> simp [List.filter_cons, h1, h2]
  have hst : configFilenames.filter (fun n => h'.stat (absPath (r' ++ (x ++ [n])))) =
      configFilenames.filter (fun n => h.stat (absPath (r ++ (x ++ [n])))) := by
    apply List.filter_congr
    intro n hn
    have : ConfigName n := by
      unfold configFilenames at hn
      simpa [ConfigName] using hn
    exact H.stat _ _ (of (r := r) (r' := r') _ (components_snoc hx (component_configName this)))
  unfold getSingleFilePathForDir at hp ⊢
  rw [key r h H.root] at hp
  rw [key r' h' H.root', hst]
  have hsub : ∀ n ∈ configFilenames.filter (fun n => h.stat (absPath (r ++ (x ++ [n])))), ConfigName n := by
    intro n hn
    have := (List.mem_filter.1 hn).1
    unfold configFilenames at this
    simpa [ConfigName] using this
  generalize configFilenames.filter (fun n => h.stat (absPath (r ++ (x ++ [n])))) = l at hp hsub
  match l, hp, hsub with
  | [], hp, _ => injection hp with hp; exact Or.inl ⟨hp.symm, rfl⟩
  | [n], hp, hsub => injection hp with hp; exact Or.inr ⟨n, hsub n (by simp), hp.symm, rfl⟩

theorem dirExcludes (H : MovedHost r r' h h') {x : List Str} (hx : Components x) {es : List Str}
    (he : getExcludePrefixesForDir h (absPath (r ++ x)) = .ok es) :
    ∃ es', getExcludePrefixesForDir h' (absPath (r' ++ x)) = .ok es' ∧ Pointwise (MovedPath r r') es es' := by
  unfold getExcludePrefixesForDir at he ⊢
  rw [isAbs_absPath, clean_absPath (comps H.root hx)] at he
  rw [isAbs_absPath, clean_absPath (comps H.root' hx)]
  simp only [Bool.not_true, Bool.false_eq_true, if_false] at he ⊢
  cases hp : getSingleFilePathForDir h (absPath (r ++ x)) with
  | error err => rw [hp] at he; cases he
  | ok p =>
    rw [hp] at he
    dsimp only at he
    rcases single H hx hp with ⟨rfl, e⟩ | ⟨name, hn, rfl, e⟩
    · rw [e]
      rw [if_pos rfl] at he
      injection he with he
      subst he
      exact ⟨[], rfl, .nil⟩
    · rw [e]
      dsimp only
      rw [if_neg (absPath_ne_empty _)] at he ⊢
      have hc := components_snoc hx (component_configName hn)
      cases hg : getExternalConfig h (absPath (r ++ (x ++ [name]))) with
      | error err => rw [hg] at he; cases he
      | ok g =>
        rw [hg] at he
        rw [external H hc hg]
        exact excludeLoop H.root H.root' hx (Strs.sortUniq g.excludes)
          (inTree_sortUniq (H.portable x name g hc (by rw [List.append_assoc]; exact hg)).excludes) he

theorem dataExcludes (H : MovedHost r r' h h') {x : List Str} (hx : Components x) {data : Str}
    (hdata : ∀ e, jsonUnmarshalStrict data = .ok e → Portable x.length e) {es : List Str}
    (he : getExcludePrefixesForData h (absPath (r ++ x)) data = .ok es) :
    ∃ es', getExcludePrefixesForData h' (absPath (r' ++ x)) data = .ok es' ∧ Pointwise (MovedPath r r') es es' := by
  unfold getExcludePrefixesForData at he ⊢
  rw [isAbs_absPath, clean_absPath (comps H.root hx)] at he
  rw [isAbs_absPath, clean_absPath (comps H.root' hx)]
  simp only [Bool.not_true, Bool.false_eq_true, if_false] at he ⊢
  cases hg : jsonUnmarshalStrict data with
  | error err => rw [hg] at he; cases he
  | ok g =>
    rw [hg] at he
    exact excludeLoop H.root H.root' hx (Strs.sortUniq g.excludes) (inTree_sortUniq (hdata g hg).excludes) he

end Verif.Proof.Moved
