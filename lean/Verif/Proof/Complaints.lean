import Verif.Spec.Complaints
import Verif.Proof.Settings

/-!
# Proofs about what a refused configuration is told
-/

namespace Verif.Settings

open Verif Str Path Spec

variable {h : Host} {develMode : Bool} {e : ExternalConfig} {d : Str}

theorem excludeLoop_error (hd : IsAbsPath d) {l : List Str} {err : Err} (hl : ∀ x ∈ l, x ∈ e.excludes ∧ x ≠ [])
    (he : excludeLoop d l = .error err) : Complaint h develMode e d 0 err := by
  induction l with
  | nil => rw [excludeLoop] at he; cases he
  | cons x xs ih =>
    rw [excludeLoop] at he
    dsimp only at he
    rw [resolve_eq hd] at he
    obtain ⟨h1, h2⟩ := hl x (by simp)
    split at he
    · rename_i hx
      injection he with he
      rw [← he]
      exact .excludesItself h1 h2 hx
    · split at he
      · rename_i _ hx
        injection he with he
        rw [← he]
        refine .excludesOutside h1 h2 fun t ht => ?_
        rw [hasPrefix_iff.2 ⟨t, ht⟩] at hx
        cases hx
      · split at he
        · rename_i err' herr
          injection he with he
          subst he
          exact ih (fun y hy => hl y (by simp [hy])) herr
        · cases he

theorem excludes_error (hd : IsAbsPath d) {err : Err} (he : getExcludePrefixes e.excludes d = .error err) :
    Complaint h develMode e d 0 err :=
  excludeLoop_error hd (fun x hx => (mem_sortUniq _ x).1 hx) he

theorem plugin_error (hd : IsAbsPath d) {p : ExternalPlugin} (hp : p ∈ e.plugins) {err : Err}
    (he : genPluginOf d p = .error err) : Complaint h develMode e d 1 err := by
  unfold genPluginOf at he
  cases h1 : parseGenPluginType p.type with
  | error err' =>
    rw [h1] at he
    injection he with he
    subst he
    have hn : ∀ t, ¬ PluginType p.type t := fun t ht => by
      rw [(parseGenPluginType_iff _ _).2 ht] at h1; cases h1
    unfold parseGenPluginType at h1
    dsimp only at h1
    split at h1
    · cases h1
    · split at h1
      · cases h1
      · split at h1
        · cases h1
        · injection h1 with h1
          rw [← h1]
          exact .pluginType hp hn
  | ok t =>
    rw [h1] at he
    dsimp only at he
    split at he
    · rename_i h2
      injection he with he
      rw [← he]
      exact .pluginOutput hp h2
    · obtain ⟨o, ho, _⟩ := outputPathOf_spec hd p
      rw [ho] at he
      dsimp only at he
      cases h3 : checkPlugin p with
      | ok u => rw [h3] at he; cases he
      | error err' =>
        rw [h3] at he
        injection he with he
        subst he
        unfold checkPlugin at h3
        split at h3
        · rename_i h4
          injection h3 with h3
          rw [← h3]
          cases hs : p.fileSuffix with
          | nil => rw [hs] at h4; cases h4
          | cons c cs =>
            rw [hs] at h4
            injection h4 with h4
            subst h4
            rw [← hs]
            exact .pluginSuffix hp hs
        · split at h3
          · rename_i hn
            split at h3
            · rename_i h5
              injection h3 with h3
              rw [← h3]
              exact .pluginImports hp hn h5
            · split at h3
              · rename_i h5
                injection h3 with h3
                rw [← h3]
                exact .pluginSourceInfo hp hn h5
              · cases h3
          · cases h3

theorem plugins_error (hd : IsAbsPath d) {ps : List ExternalPlugin} (hp : ∀ p ∈ ps, p ∈ e.plugins) {err : Err}
    (he : genPluginsOf d ps = .error err) : Complaint h develMode e d 1 err := by
  induction ps with
  | nil => rw [genPluginsOf] at he; cases he
  | cons p ps ih =>
    rw [genPluginsOf] at he
    split at he
    · rename_i err' h1
      injection he with he
      rw [← he]
      exact plugin_error hd (hp p (by simp)) h1
    · split at he
      · rename_i err' h1
        injection he with he
        subst he
        exact ih (fun q hq => hp q (by simp [hq])) h1
      · cases he

theorem packages_error {l : List (Str × Str)} (hl : ∀ x ∈ l, x ∈ e.createPackages) {m : GoMap Str Str} {err : Err}
    (he : createPackagesOf d l m = .error err) : Complaint h develMode e d 2 err := by
  induction l generalizing m with
  | nil => rw [createPackagesOf] at he; cases he
  | cons x l ih =>
    obtain ⟨a, b⟩ := x
    have hx := hl (a, b) (by simp)
    rw [createPackagesOf] at he
    split at he
    · rename_i h1
      injection he with he
      rw [← he]
      exact .packageNoDirectory hx h1
    · split at he
      · rename_i h1
        injection he with he
        rw [← he]
        exact .packageNoName hx h1
      · split at he
        · rename_i h1
          injection he with he
          rw [← he]
          exact .packageAbsolute (x := (a, b)) hx h1
        · exact ih (fun y hy => hl y (by simp [hy])) he

theorem header_error {err : Err} (he : fileHeaderOf h e d = .error err) : Complaint h develMode e d 3 err := by
  have hs := fileHeaderOf_spec h e d
  rw [he] at hs
  unfold fileHeaderOf at he
  split at he
  · rename_i h1
    split at he
    · rename_i h2
      injection he with he
      rw [← he]
      exact .headerTwice h2.1 h2.2
    · rename_i h2
      cases h3 : fileHeaderContentOf h e d with
      | error err' =>
        rw [h3] at he
        injection he with he
        subst he
        unfold fileHeaderContentOf at h3
        split at h3
        · rename_i h4
          split at h3
          · rename_i h5
            injection h3 with h3
            rw [← h3]
            exact .headerAbsolute h5
          · exact .headerUnreadable h4 h3
        · cases h3
      | ok t =>
        have ht : HeaderText h e d (some t) := by
          unfold fileHeaderContentOf at h3
          split at h3
          · rename_i h4
            split at h3
            · cases h3
            · rename_i h5
              refine .file h4 ?_ (by simpa using h5) h3
              exact Classical.not_not.1 fun h6 => h2 ⟨h4, h6⟩
          · rename_i h4
            have h4' : e.fileHeaderPath = [] := Classical.not_not.1 h4
            injection h3 with h3
            rw [← h3]
            refine .content h4' ?_
            rcases h1 with h1 | h1
            · exact absurd h1 h4
            · exact h1
        rw [h3] at he
        dsimp only at he
        generalize join s%"\n" (if (!e.fileHeaderIsCommented) = true then
          (getFileHeaderLines t).map commentLine else getFileHeaderLines t) = text at he
        split at he
        · injection he with he
          rw [← he]
          rcases hs with ⟨_, _, _, hx⟩ | ⟨hn, _⟩
          · cases hx
          · have hc : e.fileHeaderIsCommented = true := by
              cases hx : e.fileHeaderIsCommented with
              | true => rfl
              | false => exact absurd ⟨some t, ht, fun h => by rw [hx] at h; cases h⟩ hn
            refine .headerEmpty ht hc fun c hct => ?_
            cases hx : isSpace c with
            | true => rfl
            | false =>
              refine absurd ⟨some t, ht, fun _ t' e' => ?_⟩ hn
              injection e' with e'
              subst e'
              exact ⟨c, hct, hx⟩
        · cases he
  · cases he

theorem names_error {gs : List GenPlugin}
    (hg : ∀ g ∈ gs, ∃ p ∈ e.plugins, g.name = p.name ∧ PluginType p.type g.type) {err : Err}
    (he : checkGenPlugins e.importPath gs = .error err) : Complaint h develMode e d 5 err := by
  induction gs with
  | nil => rw [checkGenPlugins] at he; cases he
  | cons g gs ih =>
    obtain ⟨p, hp, hn, ht⟩ := hg g (by simp)
    rw [checkGenPlugins] at he
    split at he
    · rename_i h1
      injection he with he
      obtain ⟨t, h1⟩ := hasPrefix_iff.1 h1
      rw [← he, hn]
      exact .pluginPrefix hp (hn ▸ h1)
    · split at he
      · rename_i h1
        injection he with he
        rw [← he, hn]
        rw [Bool.and_eq_true, decide_eq_true_eq] at h1
        refine .pluginImportPath hp ?_ h1.2
        rcases ht with ⟨h2, _⟩ | ⟨_, h2⟩ | ⟨_, h2⟩
        · rw [h2] at h1; cases h1.1
        · exact Or.inl h2
        · exact Or.inr h2
      · exact ih (fun g hg' => hg g (by simp [hg'])) he

theorem mem_rules (a : Str) : a ∈ Strs.intersection (Strs.sortUniqModify e.add (some toUpper))
      (Strs.sortUniqModify e.remove (some toUpper)) ↔
      a ≠ [] ∧ (∃ x ∈ e.add, toUpper x = a) ∧ (∃ x ∈ e.remove, toUpper x = a) := by
  rw [Strs.intersection, (Props.C14_intersection Order.id _ _).2, Strs.sortUniqModify, Strs.sortUniqModify,
    (Props.C14_sortUniqModify Order.id _ _).2, (Props.C14_sortUniqModify Order.id _ _).2]
  exact ⟨fun ⟨⟨h1, h2⟩, ⟨_, h3⟩, _⟩ => ⟨h1, h2, h3⟩, fun ⟨h1, h2, h3⟩ => ⟨⟨h1, h2⟩, ⟨h1, h3⟩, h1⟩⟩

/-- What has no fault in a group has no complaint of the group. -/
theorem complaint_sound {n : Nat} {text : Str} (hc : Complaint h develMode e d n text) :
    (n = 0 → ¬ ∀ x ∈ e.excludes, x ≠ [] → ∃ t, t ≠ [] ∧ locate d x = d ++ t) ∧
    (n = 1 → ¬ ∀ p ∈ e.plugins, PlugOK p) ∧
    (n = 2 → ¬ ∀ x ∈ e.createPackages, x.1 ≠ [] ∧ isAbs x.1 = false ∧ x.2 ≠ []) ∧
    (n = 3 → ¬ ∃ text, HeaderText h e d text ∧
      (e.fileHeaderIsCommented = true → ∀ t, text = some t → ∃ c ∈ t, isSpace c = false)) ∧
    (n = 4 → ¬ (e.allowSuppression = true → develMode = true)) ∧
    (n = 5 → ¬ ∀ p ∈ e.plugins, (∀ rest, p.name ≠ s%"protoc-gen-" ++ rest) ∧
      ∀ t, PluginType p.type t → t ≠ .none → e.importPath ≠ []) ∧
    (n = 6 → ¬ ∀ a ∈ e.add, ∀ r ∈ e.remove, a ≠ [] → toUpper a ≠ toUpper r) ∧ n ≤ 6 := by
  cases hc with
  | @excludesItself x h1 h2 h3 =>
    refine ⟨fun _ ha => ?_, by omega, by omega, by omega, by omega, by omega, by omega, by omega⟩
    obtain ⟨t, ht, e'⟩ := ha x h1 h2
    rw [h3] at e'
    have := congrArg List.length e'
    rw [List.length_append] at this
    exact absurd (List.length_eq_zero_iff.1 (by omega)) ht
  | @excludesOutside x h1 h2 h3 =>
    refine ⟨fun _ ha => ?_, by omega, by omega, by omega, by omega, by omega, by omega, by omega⟩
    obtain ⟨t, ht, e'⟩ := ha x h1 h2
    exact h3 t e'
  | @pluginType p h1 h2 =>
    refine ⟨by omega, fun _ ha => ?_, by omega, by omega, by omega, by omega, by omega, by omega⟩
    obtain ⟨t, ht⟩ := (ha p h1).1
    exact h2 t ht
  | @pluginOutput p h1 h2 =>
    exact ⟨by omega, fun _ ha => (ha p h1).2.1 h2, by omega, by omega, by omega, by omega, by omega, by omega⟩
  | @pluginSuffix p r h1 h2 =>
    exact ⟨by omega, fun _ ha => (ha p h1).2.2.1 r h2, by omega, by omega, by omega, by omega, by omega, by omega⟩
  | @pluginImports p h1 h2 h3 =>
    exact ⟨by omega, fun _ ha => h2 ((ha p h1).2.2.2 (Or.inl h3)), by omega, by omega, by omega, by omega,
      by omega, by omega⟩
  | @pluginSourceInfo p h1 h2 h3 =>
    exact ⟨by omega, fun _ ha => h2 ((ha p h1).2.2.2 (Or.inr h3)), by omega, by omega, by omega, by omega,
      by omega, by omega⟩
  | @packageNoDirectory x h1 h2 =>
    exact ⟨by omega, by omega, fun _ ha => (ha x h1).1 h2, by omega, by omega, by omega, by omega, by omega⟩
  | @packageNoName x h1 h2 =>
    exact ⟨by omega, by omega, fun _ ha => (ha x h1).2.2 h2, by omega, by omega, by omega, by omega, by omega⟩
  | @packageAbsolute x h1 h2 =>
    refine ⟨by omega, by omega, fun _ ha => ?_, by omega, by omega, by omega, by omega, by omega⟩
    have := (ha x h1).2.1
    rw [h2] at this; cases this
  | headerTwice h1 h2 =>
    refine ⟨by omega, by omega, by omega, fun _ ha => ?_, by omega, by omega, by omega, by omega⟩
    obtain ⟨_, ht, _⟩ := ha
    cases ht with
    | none h _ => exact h1 h
    | content h _ => exact h1 h
    | file _ h _ _ => exact h2 h
  | headerAbsolute h1 =>
    refine ⟨by omega, by omega, by omega, fun _ ha => ?_, by omega, by omega, by omega, by omega⟩
    obtain ⟨_, ht, _⟩ := ha
    cases ht with
    | none h _ => rw [h] at h1; cases h1
    | content h _ => rw [h] at h1; cases h1
    | file _ _ h _ => rw [h] at h1; cases h1
  | headerUnreadable h1 h2 =>
    refine ⟨by omega, by omega, by omega, fun _ ha => ?_, by omega, by omega, by omega, by omega⟩
    obtain ⟨_, ht, _⟩ := ha
    cases ht with
    | none h _ => exact h1 h
    | content h _ => exact h1 h
    | file _ _ _ h => rw [h] at h2; cases h2
  | @headerEmpty t h1 h2 h3 =>
    refine ⟨by omega, by omega, by omega, fun _ ha => ?_, by omega, by omega, by omega, by omega⟩
    obtain ⟨text, ht, hb⟩ := ha
    have heq : text = some t := by
      cases ht with
      | none a1 a2 => cases h1 <;> contradiction
      | content a1 a2 => cases h1 <;> first | rfl | contradiction
      | file a1 a2 a3 a4 =>
        cases h1 with
        | content b1 b2 => contradiction
        | file b1 b2 b3 b4 => rw [a4] at b4; injection b4 with b4; rw [b4]
    obtain ⟨c, hc, hs⟩ := hb h2 t heq
    rw [h3 c hc] at hs; cases hs
  | suppression h1 h2 =>
    refine ⟨by omega, by omega, by omega, by omega, fun _ ha => ?_, by omega, by omega, by omega⟩
    rw [ha h1] at h2; cases h2
  | @pluginPrefix p r h1 h2 =>
    exact ⟨by omega, by omega, by omega, by omega, by omega, fun _ ha => (ha p h1).1 r h2, by omega, by omega⟩
  | @pluginImportPath p h1 h2 h3 =>
    refine ⟨by omega, by omega, by omega, by omega, by omega, fun _ ha => ?_, by omega, by omega⟩
    rcases h2 with h2 | h2
    · exact (ha p h1).2 .go (Or.inr (Or.inl ⟨rfl, h2⟩)) (by simp) h3
    · exact (ha p h1).2 .gogo (Or.inr (Or.inr ⟨rfl, h2⟩)) (by simp) h3
  | @rules ids h1 h2 h3 =>
    refine ⟨by omega, by omega, by omega, by omega, by omega, by omega, fun _ ha => ?_, by omega⟩
    obtain ⟨a, hm⟩ := List.exists_mem_of_ne_nil _ h1
    obtain ⟨g1, ⟨x, hx, rfl⟩, y, hy, hxy⟩ := (h3 a).1 hm
    refine ha x hx y hy (fun e => g1 ?_) hxy.symm
    subst e; rfl

/-- The error of the conversion is a complaint, and no group before has one. -/
theorem convert_error (s : SortSlice) (hd : IsAbsPath d) {err : Err}
    (he : externalConfigToConfig s h develMode e d = .error err) :
    ∃ n, Complaint h develMode e d n err ∧ ∀ m < n, ∀ text, ¬ Complaint h develMode e d m text := by
  unfold externalConfigToConfig at he
  cases h1 : getExcludePrefixes e.excludes d with
  | error err' =>
    rw [h1] at he
    injection he with he
    subst he
    exact ⟨0, excludes_error hd h1, by omega⟩
  | ok ex =>
    rw [h1] at he
    dsimp only at he
    obtain ⟨hex, _⟩ := (getExcludePrefixes_iff hd _ _).1 h1
    have n0 : ∀ text, ¬ Complaint h develMode e d 0 text := fun text hc => (complaint_sound hc).1 rfl hex
    cases h2 : genPluginsOf d e.plugins with
    | error err' =>
      rw [h2] at he
      injection he with he
      subst he
      refine ⟨1, plugins_error hd (fun _ hp => hp) h2, fun m hm text hc => ?_⟩
      obtain rfl : m = 0 := by omega
      exact n0 _ hc
    | ok gs =>
      rw [h2] at he
      dsimp only at he
      obtain ⟨hpl, hf⟩ : (∀ p ∈ e.plugins, PlugOK p) ∧ Pointwise (PluginFrom d) e.plugins gs := by
        rcases genPluginsOf_spec hd e.plugins with ⟨a, gs', b, c⟩ | ⟨_, e', b⟩
        · rw [h2] at b; injection b with b; subst b; exact ⟨a, c⟩
        · rw [h2] at b; cases b
      have n1 : ∀ text, ¬ Complaint h develMode e d 1 text := fun text hc => (complaint_sound hc).2.1 rfl hpl
      cases h3 : createPackagesOf d e.createPackages [] with
      | error err' =>
        rw [h3] at he
        injection he with he
        subst he
        refine ⟨2, packages_error (fun _ hp => hp) h3, fun m hm text hc => ?_⟩
        obtain rfl | rfl : m = 0 ∨ m = 1 := by omega
        · exact n0 _ hc
        · exact n1 _ hc
      | ok pk =>
        rw [h3] at he
        dsimp only at he
        have n2 : ∀ text, ¬ Complaint h develMode e d 2 text := by
          rcases createPackagesOf_spec d e.createPackages [] with ⟨a, _⟩ | ⟨_, e', b⟩
          · exact fun text hc => (complaint_sound hc).2.2.1 rfl a
          · rw [h3] at b; cases b
        cases h4 : fileHeaderOf h e d with
        | error err' =>
          rw [h4] at he
          injection he with he
          subst he
          refine ⟨3, header_error h4, fun m hm text hc => ?_⟩
          obtain rfl | rfl | rfl : m = 0 ∨ m = 1 ∨ m = 2 := by omega
          · exact n0 _ hc
          · exact n1 _ hc
          · exact n2 _ hc
        | ok fh =>
          rw [h4] at he
          dsimp only at he
          have n3 : ∀ text, ¬ Complaint h develMode e d 3 text := by
            rcases fileHeaderOf_spec h e d with ⟨t, a, b, _⟩ | ⟨_, e', b⟩
            · exact fun text hc => (complaint_sound hc).2.2.2.1 rfl ⟨t, a, b⟩
            · rw [h4] at b; cases b
          unfold finishConfig at he
          split at he
          · rename_i h5
            injection he with he
            rw [← he]
            rw [Bool.and_eq_true] at h5
            refine ⟨4, .suppression h5.2 (by simpa using h5.1), fun m hm text hc => ?_⟩
            obtain rfl | rfl | rfl | rfl : m = 0 ∨ m = 1 ∨ m = 2 ∨ m = 3 := by omega
            · exact n0 _ hc
            · exact n1 _ hc
            · exact n2 _ hc
            · exact n3 _ hc
          · rename_i h5
            have n4 : ∀ text, ¬ Complaint h develMode e d 4 text := by
              refine fun text hc => (complaint_sound hc).2.2.2.2.1 rfl fun ha => ?_
              cases hx : develMode with
              | true => rfl
              | false => rw [ha, hx] at h5; exact absurd rfl h5
            have hperm := s.perm (fun a b : GenPlugin => Str.lt a.name b.name) gs
            have hfrom : ∀ g ∈ s.run (fun a b : GenPlugin => Str.lt a.name b.name) gs,
                ∃ p ∈ e.plugins, g.name = p.name ∧ PluginType p.type g.type := by
              intro g hg
              obtain ⟨p, hp, hpf⟩ := pointwise_mem_right hf _ (hperm.mem_iff.1 hg)
              exact ⟨p, hp, hpf.name, hpf.type⟩
            dsimp only at he
            have hcfg : (buildConfig e d ex (s.run (fun a b : GenPlugin => Str.lt a.name b.name) gs) pk fh).gen.plugins =
              s.run (fun a b : GenPlugin => Str.lt a.name b.name) gs := rfl
            rw [hcfg] at he
            cases h6 : checkGenPlugins e.importPath (s.run (fun a b : GenPlugin => Str.lt a.name b.name) gs) with
            | error err' =>
              rw [h6] at he
              injection he with he
              subst he
              refine ⟨5, names_error hfrom h6, fun m hm text hc => ?_⟩
              obtain rfl | rfl | rfl | rfl | rfl : m = 0 ∨ m = 1 ∨ m = 2 ∨ m = 3 ∨ m = 4 := by omega
              · exact n0 _ hc
              · exact n1 _ hc
              · exact n2 _ hc
              · exact n3 _ hc
              · exact n4 _ hc
            | ok u =>
              rw [h6] at he
              dsimp only at he
              have n5 : ∀ text, ¬ Complaint h develMode e d 5 text := by
                refine fun text hc => (complaint_sound hc).2.2.2.2.2.1 rfl fun p hp => ?_
                obtain ⟨g, hg, hpf⟩ := pointwise_mem_left hf _ hp
                have := (checkGenPlugins_iff _ _).1 h6 g (hperm.mem_iff.2 hg)
                rw [hpf.name] at this
                exact ⟨this.1, fun t ht hn => this.2 (by rw [pluginType_unique hpf.type ht]; exact hn)⟩
              split at he
              · rename_i h7
                injection he with he
                rw [← he]
                refine ⟨6, .rules (List.ne_nil_of_length_pos h7) (Props.C14_intersection Order.id _ _).1 (fun a => mem_rules a),
                  fun m hm text hc => ?_⟩
                obtain rfl | rfl | rfl | rfl | rfl | rfl :
                  m = 0 ∨ m = 1 ∨ m = 2 ∨ m = 3 ∨ m = 4 ∨ m = 5 := by omega
                · exact n0 _ hc
                · exact n1 _ hc
                · exact n2 _ hc
                · exact n3 _ hc
                · exact n4 _ hc
                · exact n5 _ hc
              · cases he

/-- A complaint of any group means that the configuration is not acceptable. -/
theorem complaint_not_acceptable {n : Nat} {text : Str} (hc : Complaint h develMode e d n text) :
    ¬ Acceptable h develMode e d := by
  intro ha
  obtain ⟨c0, c1, c2, c3, c4, c5, c6, hn⟩ := complaint_sound hc
  have : n = 0 ∨ n = 1 ∨ n = 2 ∨ n = 3 ∨ n = 4 ∨ n = 5 ∨ n = 6 := by omega
  rcases this with h | h | h | h | h | h | h
  · exact c0 h ha.excludes
  · refine c1 h fun p hp => ?_
    have hp' := ha.plugins p hp
    obtain ⟨t, ht, _⟩ := hp'.type
    exact ⟨⟨t, ht⟩, hp'.output, hp'.fileSuffix, hp'.descriptorSet⟩
  · exact c2 h ha.packages
  · exact c3 h ha.header
  · exact c4 h ha.suppression
  · refine c5 h fun p hp => ?_
    have hp' := ha.plugins p hp
    obtain ⟨t, ht, hi⟩ := hp'.type
    exact ⟨hp'.name, fun t' ht' hn => hi (by rw [pluginType_unique ht ht']; exact hn)⟩
  · exact c6 h ha.rules

/-! ## Finding the file -/

theorem single_error {cs : List Str} (hc : Components cs) {err : Err}
    (he : getSingleFilePathForDir h (absPath cs) = .error err) :
    err = twoFilesText cs ∧ ∃ p, ConfigFile h.stat (absPath cs) p := by
  have hs := single_cases h hc
  rw [he] at hs
  rcases hs with ⟨_, hs, _⟩ | ⟨hs, _⟩ | ⟨_, p, q, _, hp, hq, hpq⟩
  · cases hs
  · cases hs
  · refine ⟨?_, p, hp⟩
    have hy := joinPath_component (components_snoc hc component_yaml)
    have hj := joinPath_component (components_snoc hc component_json)
    rw [configFile_iff hc] at hp hq
    have h1 : h.stat (absPath (cs ++ [s%"prototool.yaml"])) = true := by
      rcases hp with ⟨rfl | rfl, hp⟩
      · exact hp
      · rcases hq with ⟨rfl | rfl, hq⟩
        · exact hq
        · exact absurd rfl hpq
    have h2 : h.stat (absPath (cs ++ [s%"prototool.json"])) = true := by
      rcases hp with ⟨rfl | rfl, hp⟩
      · rcases hq with ⟨rfl | rfl, hq⟩
        · exact absurd rfl hpq
        · exact hq
      · exact hp
    unfold getSingleFilePathForDir configFilenames at he
    simp only [List.map_cons, List.map_nil, hy, hj, List.filter_cons, h1, h2, if_true, List.filter_nil] at he
    injection he with he
    exact he.symm

theorem getFilePathGo_error {cs : List Str} (hc : Components cs) {err : Err} : ∀ n,
    getFilePathGo h n (absPath cs) = some (.error err) →
      ∃ ds, NearestConfig h.stat (absPath cs) (absPath ds) ∧ err = twoFilesText ds := by
  induction cs using snoc_induction with
  | nil =>
    intro n hn
    cases n with
    | zero => rw [getFilePathGo] at hn; cases hn
    | succ n =>
      rw [getFilePathGo] at hn
      cases hs : getSingleFilePathForDir h (absPath []) with
      | error e =>
        rw [hs] at hn
        injection hn with hn
        injection hn with hn
        subst hn
        obtain ⟨h1, p, h2⟩ := single_error hc hs
        exact ⟨[], nearest_self hc h2, h1⟩
      | ok p =>
        rw [hs] at hn
        dsimp only at hn
        rw [if_pos (absPath_nil : absPath [] = s%"/")] at hn
        split at hn <;> cases hn
  | snoc cs c ih =>
    intro n hn
    cases n with
    | zero => rw [getFilePathGo] at hn; cases hn
    | succ n =>
      rw [getFilePathGo] at hn
      rcases single_cases h hc with ⟨p, hs, hne, _⟩ | ⟨hs, hno⟩ | ⟨e, p, q, hs, _⟩
      · rw [hs] at hn
        dsimp only at hn
        rw [if_pos hne] at hn
        cases hn
      · rw [hs] at hn
        dsimp only at hn
        have hroot : ¬ absPath (cs ++ [c]) = s%"/" := by rw [absPath_root hc]; simp
        rw [if_neg (by simp), if_neg hroot, dir_snoc hc] at hn
        obtain ⟨ds, h1, h2⟩ := ih (components_append.1 hc).1 n hn
        exact ⟨ds, nearest_snoc hc hno h1, h2⟩
      · rw [hs] at hn
        injection hn with hn
        injection hn with hn
        subst hn
        obtain ⟨h1, p, h2⟩ := single_error hc hs
        exact ⟨_, nearest_self hc h2, h1⟩

theorem find_error {dirPath : Str} (ha : isAbs dirPath = true) {err : Err}
    (he : getFilePathForDirOf h dirPath = some (.error err)) :
    ∃ ds, NearestConfig h.stat (clean dirPath) (absPath ds) ∧ err = twoFilesText ds := by
  obtain ⟨cs, hc, e⟩ := clean_isAbsPath ha
  unfold getFilePathForDirOf getFilePathForDir at he
  rw [ha] at he
  rw [e] at he ⊢
  exact getFilePathGo_error hc _ he

/-! ## Reading the file -/

theorem ext_named {cs : List Str} {name : Str} (hn : name = s%"prototool.yaml" ∨ name = s%"prototool.json") :
    (name = s%"prototool.yaml" ∧ ext (absPath (cs ++ [name])) = s%".yaml") ∨
      (name = s%"prototool.json" ∧ ext (absPath (cs ++ [name])) = s%".json") := by
  have hx : ∃ q, absPath (cs ++ [name]) = q ++ '/' :: name := by
    rw [absPath_ne_nil (by simp), List.flatMap_append]
    exact ⟨_, by simp; rfl⟩
  obtain ⟨q, hq⟩ := hx
  rw [hq]
  unfold ext
  rcases hn with rfl | rfl
  · exact Or.inl ⟨rfl, by simp⟩
  · exact Or.inr ⟨rfl, by simp⟩

theorem read_cases {d p : Str} (hp : ConfigFile h.stat d p) :
    (∃ err, getExternalConfig h p = .error err ∧ Unread h p err) ∨
      ∃ e, getExternalConfig h p = .ok e ∧ Content h p e := by
  obtain ⟨cs, name, hc, hn, rfl, rfl, _⟩ := hp
  unfold getExternalConfig
  cases h1 : h.readFile (absPath (cs ++ [name])) with
  | error err => exact Or.inl ⟨err, rfl, .file h1⟩
  | ok data =>
    dsimp only
    split
    · rename_i h2
      subst h2
      exact Or.inr ⟨_, rfl, .empty h1⟩
    · rename_i h2
      have hq : ∀ a b, name = a ++ b → ∃ q, absPath (cs ++ [name]) = q ++ b := by
        intro a b e
        rw [absPath_ne_nil (by simp), List.flatMap_append, e]
        exact ⟨cs.flatMap (fun c => '/' :: c) ++ '/' :: a, by simp⟩
      rcases ext_named (cs := cs) hn with ⟨rfl, he⟩ | ⟨rfl, he⟩
      · obtain ⟨q, hq⟩ := hq s%"prototool" s%".yaml" rfl
        rw [he, if_neg (by decide), if_pos rfl]
        cases h3 : h.parseYAML data with
        | error err => exact Or.inl ⟨err, rfl, .yaml h1 h2 hq h3⟩
        | ok e => exact Or.inr ⟨e, rfl, .yaml h1 h2 hq h3⟩
      · obtain ⟨q, hq⟩ := hq s%"prototool" s%".json" rfl
        rw [he, if_pos rfl]
        cases h3 : jsonUnmarshalStrict data with
        | error err => exact Or.inl ⟨err, rfl, .json h1 h2 hq h3⟩
        | ok e => exact Or.inr ⟨e, rfl, .json h1 h2 hq h3⟩

end Verif.Settings
