import Verif.Spec.Discovery
import Verif.Proof.Path

/-!
# Proofs about configuration discovery and excludes
-/

namespace Verif.Settings

open Verif Str Path Spec

theorem snoc_induction {α : Type} {P : List α → Prop} (nil : P [])
    (snoc : ∀ (l : List α) (a : α), P l → P (l ++ [a])) : ∀ l, P l := by
  intro l
  have h : ∀ r : List α, P r.reverse := by
    intro r
    induction r with
    | nil => exact nil
    | cons a r ih => rw [List.reverse_cons]; exact snoc _ _ ih
  have := h l.reverse
  rwa [List.reverse_reverse] at this

theorem component_yaml : Component s%"prototool.yaml" := by
  refine ⟨by decide, by decide, by decide, by decide⟩

theorem component_json : Component s%"prototool.json" := by
  refine ⟨by decide, by decide, by decide, by decide⟩

theorem configFile_iff {stat : Str → Bool} {cs : List Str} (h : Components cs) {p : Str} :
    ConfigFile stat (absPath cs) p ↔
      (p = absPath (cs ++ [s%"prototool.yaml"]) ∨ p = absPath (cs ++ [s%"prototool.json"])) ∧
        stat p = true := by
  constructor
  · rintro ⟨ds, name, hd, hn, e, rfl, hs⟩
    have := absPath_inj h hd e
    subst this
    refine ⟨?_, hs⟩
    rcases hn with rfl | rfl
    · exact Or.inl rfl
    · exact Or.inr rfl
  · rintro ⟨h1 | h1, hs⟩
    · exact ⟨cs, _, h, Or.inl rfl, rfl, h1, hs⟩
    · exact ⟨cs, _, h, Or.inr rfl, rfl, h1, hs⟩

theorem components_snoc {cs : List Str} {c : Str} (h : Components cs) (hc : Component c) :
    Components (cs ++ [c]) := components_append.2 ⟨h, components_single.2 hc⟩

theorem yaml_ne_json {cs : List Str} (h : Components cs) :
    absPath (cs ++ [s%"prototool.yaml"]) ≠ absPath (cs ++ [s%"prototool.json"]) := by
  intro e
  have := absPath_inj (components_snoc h component_yaml) (components_snoc h component_json) e
  have := (List.append_cancel_left this)
  exact absurd this (by decide)

theorem absPath_ne_empty (cs : List Str) : absPath cs ≠ [] := by rw [absPath_eq]; simp

/-- What looking into one directory finds. -/
theorem single_cases (h : Host) {cs : List Str} (hc : Components cs) :
    (∃ p, getSingleFilePathForDir h (absPath cs) = .ok p ∧ p ≠ [] ∧ ConfigFile h.stat (absPath cs) p ∧
        ∀ q, ConfigFile h.stat (absPath cs) q → q = p) ∨
      (getSingleFilePathForDir h (absPath cs) = .ok [] ∧ NoConfig h.stat (absPath cs)) ∨
      (∃ e p q, getSingleFilePathForDir h (absPath cs) = .error e ∧ ConfigFile h.stat (absPath cs) p ∧
        ConfigFile h.stat (absPath cs) q ∧ p ≠ q) := by
  have hy := joinPath_component (components_snoc hc component_yaml)
  have hj := joinPath_component (components_snoc hc component_json)
  have hlist : (configFilenames.map fun n => joinPath [absPath cs, n]) =
      [absPath (cs ++ [s%"prototool.yaml"]), absPath (cs ++ [s%"prototool.json"])] := by
    unfold configFilenames
    simp only [List.map_cons, List.map_nil]
    rw [hy, hj]
  unfold getSingleFilePathForDir
  rw [hlist]
  cases h1 : h.stat (absPath (cs ++ [s%"prototool.yaml"])) <;>
    cases h2 : h.stat (absPath (cs ++ [s%"prototool.json"]))
  · refine Or.inr (Or.inl ⟨by simp [List.filter_cons, h1, h2], fun p hp => ?_⟩)
    rw [configFile_iff hc] at hp
    rcases hp with ⟨rfl | rfl, hp⟩
    · rw [h1] at hp; cases hp
    · rw [h2] at hp; cases hp
  · refine Or.inl ⟨_, by simp [List.filter_cons, h1, h2]; rfl, absPath_ne_empty _, ?_, ?_⟩
    · rw [configFile_iff hc]; exact ⟨Or.inr rfl, h2⟩
    · intro q hq
      rw [configFile_iff hc] at hq
      rcases hq with ⟨rfl | rfl, hq⟩
      · rw [h1] at hq; cases hq
      · rfl
  · refine Or.inl ⟨_, by simp [List.filter_cons, h1, h2]; rfl, absPath_ne_empty _, ?_, ?_⟩
    · rw [configFile_iff hc]; exact ⟨Or.inl rfl, h1⟩
    · intro q hq
      rw [configFile_iff hc] at hq
      rcases hq with ⟨rfl | rfl, hq⟩
      · rfl
      · rw [h2] at hq; cases hq
  · refine Or.inr (Or.inr ⟨_, _, _, by simp [List.filter_cons, h1, h2]; rfl, ?_, ?_, yaml_ne_json hc⟩)
    · rw [configFile_iff hc]; exact ⟨Or.inl rfl, h1⟩
    · rw [configFile_iff hc]; exact ⟨Or.inr rfl, h2⟩

/-- The three outcomes of going up from a directory. -/
def Outcome (stat : Str → Bool) (dir : Str) (r : Except Err Str) : Prop :=
  (∃ p d, r = .ok p ∧ p ≠ [] ∧ NearestConfig stat dir d ∧ ConfigFile stat d p ∧
      ∀ q, ConfigFile stat d q → q = p) ∨
    (r = .ok [] ∧ ∀ d, Within dir d → NoConfig stat d) ∨
    (∃ e d p q, r = .error e ∧ NearestConfig stat dir d ∧ ConfigFile stat d p ∧
      ConfigFile stat d q ∧ p ≠ q)

theorem nearest_self {stat : Str → Bool} {cs : List Str} (hc : Components cs) {p : Str}
    (hp : ConfigFile stat (absPath cs) p) : NearestConfig stat (absPath cs) (absPath cs) := by
  refine ⟨within_refl ⟨cs, hc, rfl⟩, ⟨p, hp⟩, fun d' hw hb => ?_⟩
  obtain ⟨⟨ds, hd, rfl⟩, _⟩ := below_isAbsPath hb
  rw [within_iff hc hd] at hw
  rw [below_iff hd hc] at hb
  exact absurd (List.IsPrefix.eq_of_length hb.1
    (Nat.le_antisymm hb.1.length_le hw.length_le)) hb.2

theorem within_snoc_iff {cs : List Str} {c : Str} (hc : Components (cs ++ [c])) {d : Str} :
    Within (absPath (cs ++ [c])) d ↔ d = absPath (cs ++ [c]) ∨ Within (absPath cs) d := by
  have hcs := (components_append.1 hc).1
  constructor
  · intro h
    obtain ⟨ds, hd, rfl⟩ := (within_isAbsPath h).2
    rw [within_iff hc hd, List.prefix_concat_iff] at h
    rcases h with h | h
    · exact Or.inl (by rw [h])
    · exact Or.inr ((within_iff hcs hd).2 h)
  · rintro (rfl | h)
    · exact within_refl ⟨_, hc, rfl⟩
    · obtain ⟨ds, hd, rfl⟩ := (within_isAbsPath h).2
      rw [within_iff hcs hd] at h
      rw [within_iff hc hd]
      exact h.trans (List.prefix_append _ _)

theorem nearest_snoc {stat : Str → Bool} {cs : List Str} {c d : Str} (hc : Components (cs ++ [c]))
    (hno : NoConfig stat (absPath (cs ++ [c]))) (h : NearestConfig stat (absPath cs) d) :
    NearestConfig stat (absPath (cs ++ [c])) d := by
  obtain ⟨hw, hp, hn⟩ := h
  refine ⟨(within_snoc_iff hc).2 (Or.inr hw), hp, fun d' hw' hb => ?_⟩
  rcases (within_snoc_iff hc).1 hw' with rfl | hw'
  · exact hno
  · exact hn d' hw' hb

theorem outcome_snoc {stat : Str → Bool} {cs : List Str} {c : Str} {r : Except Err Str}
    (hc : Components (cs ++ [c])) (hno : NoConfig stat (absPath (cs ++ [c])))
    (h : Outcome stat (absPath cs) r) : Outcome stat (absPath (cs ++ [c])) r := by
  rcases h with ⟨p, d, hr, hne, hn, hp, hq⟩ | ⟨hr, hn⟩ | ⟨e, d, p, q, hr, hn, hp, hq, hpq⟩
  · exact Or.inl ⟨p, d, hr, hne, nearest_snoc hc hno hn, hp, hq⟩
  · refine Or.inr (Or.inl ⟨hr, fun d hd => ?_⟩)
    rcases (within_snoc_iff hc).1 hd with rfl | hd
    · exact hno
    · exact hn d hd
  · exact Or.inr (Or.inr ⟨e, d, p, q, hr, nearest_snoc hc hno hn, hp, hq, hpq⟩)

theorem absPath_root {cs : List Str} (hc : Components cs) : absPath cs = s%"/" ↔ cs = [] := by
  constructor
  · intro h
    exact absPath_inj hc components_nil (by rw [h]; rfl)
  · rintro rfl; rfl

theorem getFilePathGo_outcome (h : Host) {cs : List Str} (hc : Components cs) :
    ∀ n, cs.length < n → ∃ r, getFilePathGo h n (absPath cs) = some r ∧ Outcome h.stat (absPath cs) r := by
  induction cs using snoc_induction with
  | nil =>
    intro n hn
    obtain ⟨n, rfl⟩ : ∃ m, n = m + 1 := ⟨n - 1, by simp at hn; omega⟩
    rw [getFilePathGo]
    rcases single_cases h hc with ⟨p, hs, hne, hp, hq⟩ | ⟨hs, hno⟩ | ⟨e, p, q, hs, hp, hq, hpq⟩
    · rw [hs]
      simp only [ne_eq, hne, not_false_eq_true, if_true]
      exact ⟨_, rfl, Or.inl ⟨p, _, rfl, hne, nearest_self hc hp, hp, hq⟩⟩
    · rw [hs]
      refine ⟨.ok [], by simp [absPath_nil], Or.inr (Or.inl ⟨rfl, fun d hd => ?_⟩)⟩
      obtain ⟨ds, hd', rfl⟩ := (within_isAbsPath hd).2
      rw [within_iff hc hd', List.prefix_nil] at hd
      subst hd; exact hno
    · rw [hs]
      exact ⟨_, rfl, Or.inr (Or.inr ⟨e, _, p, q, rfl, nearest_self hc hp, hp, hq, hpq⟩)⟩
  | snoc cs c ih =>
    intro n hn
    obtain ⟨n, rfl⟩ : ∃ m, n = m + 1 := ⟨n - 1, by simp at hn; omega⟩
    rw [getFilePathGo]
    rcases single_cases h hc with ⟨p, hs, hne, hp, hq⟩ | ⟨hs, hno⟩ | ⟨e, p, q, hs, hp, hq, hpq⟩
    · rw [hs]
      simp only [ne_eq, hne, not_false_eq_true, if_true]
      exact ⟨_, rfl, Or.inl ⟨p, _, rfl, hne, nearest_self hc hp, hp, hq⟩⟩
    · rw [hs]
      obtain ⟨r, hr, ho⟩ := ih (components_append.1 hc).1 n (by simp at hn; omega)
      refine ⟨r, ?_, outcome_snoc hc hno ho⟩
      have hroot : ¬ absPath (cs ++ [c]) = s%"/" := by rw [absPath_root hc]; simp
      simp only [ne_eq, not_true_eq_false, if_false, hroot]
      rw [dir_snoc hc, hr]
    · rw [hs]
      exact ⟨_, rfl, Or.inr (Or.inr ⟨e, _, p, q, rfl, nearest_self hc hp, hp, hq, hpq⟩)⟩

theorem length_absPath {cs : List Str} : cs.length ≤ (absPath cs).length := by
  by_cases h : cs = []
  · subst h; simp
  · rw [absPath_ne_nil h]
    clear h
    induction cs with
    | nil => simp
    | cons c cs ih => rw [List.flatMap_cons, List.length_append, List.length_cons, List.length_cons]; omega

theorem getFilePathForDirOf_outcome (h : Host) {dirPath : Str} (ha : isAbs dirPath = true) :
    ∃ r, getFilePathForDirOf h dirPath = some r ∧ Outcome h.stat (clean dirPath) r := by
  obtain ⟨cs, hc, e⟩ := clean_isAbsPath ha
  unfold getFilePathForDirOf getFilePathForDir
  simp only [ha, Bool.not_true, Bool.false_eq_true, if_false]
  rw [e]
  exact getFilePathGo_outcome h hc _ (by have := @length_absPath cs; omega)

/-- Two directories above the same one, none of which is below the other, are equal. -/
theorem nearest_unique {stat : Str → Bool} {dir d d' : Str} (h : NearestConfig stat dir d)
    (h' : NearestConfig stat dir d') : d = d' := by
  obtain ⟨⟨cs, hc, rfl⟩, ds, hd, rfl⟩ := within_isAbsPath h.1
  obtain ⟨_, ds', hd', rfl⟩ := within_isAbsPath h'.1
  have hp := (within_iff hc hd).1 h.1
  have hp' := (within_iff hc hd').1 h'.1
  by_cases e : ds = ds'
  · rw [e]
  rcases List.prefix_or_prefix_of_prefix hp hp' with g | g
  · have hb : Below (absPath ds') (absPath ds) := (below_iff hd' hd).2 ⟨g, e⟩
    obtain ⟨p, hp⟩ := h'.2.1
    exact absurd hp (h.2.2 _ h'.1 hb p)
  · have hb : Below (absPath ds) (absPath ds') := (below_iff hd hd').2 ⟨g, fun e' => e e'.symm⟩
    obtain ⟨p, hp⟩ := h.2.1
    exact absurd hp (h'.2.2 _ h.1 hb p)

end Verif.Settings

namespace Verif.File

open Verif Str Path Spec Settings

theorem excludedBy_iff {ds : List Str} (hd : Components ds) (e : Str) {cs : List Str}
    (hc : Components cs) :
    ∀ n, cs.length < n → ∃ b, excludedBy (absPath ds) e n (absPath cs) = some b ∧
      (b = true ↔ ∃ es, es <+: cs ∧ es ≠ [] ∧ e = absPath es ∧
        ∀ as, es <+: as → as <+: cs → as ≠ ds) := by
  induction cs using snoc_induction with
  | nil =>
    intro n hn
    obtain ⟨n, rfl⟩ : ∃ m, n = m + 1 := ⟨n - 1, by simp at hn; omega⟩
    refine ⟨false, by simp [excludedBy, absPath_nil], ?_⟩
    simp only [Bool.false_eq_true, false_iff, not_exists, not_and]
    intro es hes hne
    exact absurd (List.prefix_nil.1 hes) hne
  | snoc cs c ih =>
    intro n hn
    obtain ⟨n, rfl⟩ : ∃ m, n = m + 1 := ⟨n - 1, by simp at hn; omega⟩
    have hroot : ¬ absPath (cs ++ [c]) = s%"/" := by rw [absPath_root hc]; simp
    rw [excludedBy]
    by_cases e1 : absPath (cs ++ [c]) = absPath ds
    · refine ⟨false, by simp [e1], ?_⟩
      simp only [Bool.false_eq_true, false_iff, not_exists, not_and]
      rintro es hes _ _ hall
      exact hall (cs ++ [c]) hes (List.prefix_refl _) (absPath_inj hc hd e1)
    · rw [if_pos ⟨e1, hroot⟩]
      have hne : cs ++ [c] ≠ ds := fun h => e1 (by rw [h])
      by_cases e2 : absPath (cs ++ [c]) = e
      · refine ⟨true, by simp [e2], ?_⟩
        simp only [true_iff]
        refine ⟨cs ++ [c], List.prefix_refl _, by simp, e2.symm, fun as h1 h2 => ?_⟩
        rw [List.IsPrefix.eq_of_length h2 (Nat.le_antisymm h2.length_le h1.length_le)]
        exact hne
      · rw [if_neg e2, dir_snoc hc]
        obtain ⟨b, hb, hiff⟩ := ih (components_append.1 hc).1 n (by simp at hn; omega)
        refine ⟨b, hb, hiff.trans ?_⟩
        constructor
        · rintro ⟨es, hes, h0, he, hall⟩
          refine ⟨es, hes.trans (List.prefix_append _ _), h0, he, fun as h1 h2 => ?_⟩
          rcases List.prefix_concat_iff.1 h2 with h2 | h2
          · rw [h2]; exact hne
          · exact hall as h1 h2
        · rintro ⟨es, hes, h0, he, hall⟩
          rcases List.prefix_concat_iff.1 hes with h2 | h2
          · subst h2; exact absurd he.symm e2
          · exact ⟨es, h2, h0, he, fun as h3 h4 => hall as h3 (h4.trans (List.prefix_append _ _))⟩

theorem isExcludedGo_iff {ds : List Str} (hd : Components ds) {cs : List Str} (hc : Components cs)
    {n : Nat} (hn : cs.length < n) (excludes : List Str) :
    ∃ b, isExcludedGo n (absPath cs) (absPath ds) excludes = some b ∧
      (b = true ↔ ∃ e ∈ excludes, ∃ es, es <+: cs ∧ es ≠ [] ∧ e = absPath es ∧
        ∀ as, es <+: as → as <+: cs → as ≠ ds) := by
  induction excludes with
  | nil => exact ⟨false, rfl, by simp⟩
  | cons e es ih =>
    obtain ⟨b, hb, hiff⟩ := excludedBy_iff hd e hc n hn
    rw [isExcludedGo, hb]
    cases b with
    | true =>
      refine ⟨true, rfl, ?_⟩
      simp only [true_iff]
      exact ⟨e, by simp, hiff.1 rfl⟩
    | false =>
      obtain ⟨b', hb', hiff'⟩ := ih
      refine ⟨b', hb', hiff'.trans ?_⟩
      constructor
      · rintro ⟨x, hx, h⟩; exact ⟨x, by simp [hx], h⟩
      · rintro ⟨x, hx, h⟩
        rcases List.mem_cons.1 hx with rfl | hx
        · exact absurd (hiff.2 h) (by simp)
        · exact ⟨x, hx, h⟩

theorem isExcluded_terminates {f d : Str} (hf : IsAbsPath f) (hd : IsAbsPath d) (excludes : List Str) :
    ∃ b, isExcluded f d excludes = some b := by
  obtain ⟨cs, hc, rfl⟩ := hf
  obtain ⟨ds, hd, rfl⟩ := hd
  obtain ⟨b, hb, _⟩ := isExcludedGo_iff hd hc
    (n := (absPath cs).length + 1) (by have := @length_absPath cs; omega) excludes
  exact ⟨b, hb⟩

/-- Excludes of a file below the configuration directory. -/
theorem isExcluded_iff {f d : Str} (hw : Within f d) (excludes : List Str) :
    isExcluded f d excludes = some true ↔ ExcludedBy f d excludes := by
  obtain ⟨⟨cs, hc, rfl⟩, ds, hd, rfl⟩ := within_isAbsPath hw
  obtain ⟨b, hb, hiff⟩ := isExcludedGo_iff hd hc
    (n := (absPath cs).length + 1) (by have := @length_absPath cs; omega) excludes
  have hp := (within_iff hc hd).1 hw
  unfold isExcluded
  rw [hb, Option.some.injEq, hiff]
  unfold ExcludedBy
  constructor
  · rintro ⟨e, he, es, hes, h0, rfl, hall⟩
    have hce : Components es := fun c hc' => hc c (hes.subset hc')
    refine ⟨_, he, (within_iff hc hce).2 hes, (below_iff hce hd).2 ⟨?_, ?_⟩⟩
    · rcases List.prefix_or_prefix_of_prefix hes hp with g | g
      · exact absurd rfl (hall ds g hp)
      · exact g
    · rintro rfl; exact hall ds (List.prefix_refl _) hp rfl
  · rintro ⟨e, he, h1, h2⟩
    obtain ⟨_, es, hce, rfl⟩ := within_isAbsPath h1
    rw [within_iff hc hce] at h1
    rw [below_iff hce hd] at h2
    refine ⟨_, he, es, h1, ?_, rfl, ?_⟩
    · rintro rfl; exact h2.2 (List.prefix_nil.1 h2.1)
    · rintro as g1 _ rfl
      exact h2.2 (List.IsPrefix.eq_of_length h2.1 (Nat.le_antisymm h2.1.length_le g1.length_le))

/-- Excludes of a file outside the configuration directory. -/
theorem isExcluded_outside {f d : Str} (hf : IsAbsPath f) (hd : IsAbsPath d) (hw : ¬ Within f d)
    (excludes : List Str) :
    isExcluded f d excludes = some true ↔ ExcludedBy f s%"/" excludes := by
  obtain ⟨cs, hc, rfl⟩ := hf
  obtain ⟨ds, hd, rfl⟩ := hd
  obtain ⟨b, hb, hiff⟩ := isExcludedGo_iff hd hc
    (n := (absPath cs).length + 1) (by have := @length_absPath cs; omega) excludes
  rw [within_iff hc hd] at hw
  unfold isExcluded
  rw [hb, Option.some.injEq, hiff]
  unfold ExcludedBy
  rw [show s%"/" = absPath [] from rfl]
  constructor
  · rintro ⟨e, he, es, hes, h0, rfl, hall⟩
    have hce : Components es := fun c hc' => hc c (hes.subset hc')
    exact ⟨_, he, (within_iff hc hce).2 hes, (below_iff hce components_nil).2 ⟨List.nil_prefix, fun h => h0 h.symm⟩⟩
  · rintro ⟨e, he, h1, h2⟩
    obtain ⟨_, es, hce, rfl⟩ := within_isAbsPath h1
    rw [within_iff hc hce] at h1
    rw [below_iff hce components_nil] at h2
    refine ⟨_, he, es, h1, fun h => h2.2 h.symm, rfl, ?_⟩
    rintro as _ g2 rfl
    exact hw g2

end Verif.File
