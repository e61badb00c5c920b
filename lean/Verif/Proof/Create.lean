import Verif.Proof.Discovery
import Verif.Proof.Exec
import Verif.Proof.Map
import Verif.Proof.Settings
import Verif.Proof.FormatHeader
import Verif.Proof.Walk
import Verif.Spec.Create

/-!
# Lemmas about creating files
-/

namespace Verif.Create

open Verif Str Exec Path Spec

/-! ## The checks and the writes -/

theorem check_cases (host : Host) (w : World) (p : Str) :
    (∃ e, checkFilePath host p w = (w, .error e)) ∨
      (checkFilePath host p w = (w, .ok ()) ∧ ¬ Unfit host w.disk p) := by
  unfold checkFilePath Unfit
  by_cases hp : p = []
  · rw [if_pos hp]; exact .inl ⟨_, rfl⟩
  · rw [if_neg hp]
    cases hs : host.stat (dir p) with
    | error e => exact .inl ⟨_, rfl⟩
    | ok k =>
      cases k with
      | regular => exact .inl ⟨_, rfl⟩
      | other => exact .inl ⟨_, rfl⟩
      | dir =>
        dsimp only
        cases hd : w.disk (File.absClean host.wd p) with
        | some data =>
          dsimp only
          by_cases hl : data.length > 0
          · rw [if_pos hl]; exact .inl ⟨_, rfl⟩
          · rw [if_neg hl]
            refine .inr ⟨rfl, ?_⟩
            rintro (h | h | ⟨data', h, hne⟩)
            · exact hp h
            · exact h rfl
            · unfold located at h
              rw [hd] at h
              cases h
              exact hl (List.length_pos_iff.2 hne)
        | none =>
          dsimp only
          cases host.stat p with
          | ok _ => exact .inl ⟨_, rfl⟩
          | error _ =>
            refine .inr ⟨rfl, ?_⟩
            rintro (h | h | ⟨data', h, hne⟩)
            · exact hp h
            · exact h rfl
            · unfold located at h
              rw [hd] at h
              cases h

theorem checks_cases (host : Host) (w : World) (ps : List Str) :
    (∃ e, forEach (checkFilePath host) ps w = (w, .error e)) ∨
      (forEach (checkFilePath host) ps w = (w, .ok ()) ∧ ∀ p ∈ ps, ¬ Unfit host w.disk p) := by
  induction ps with
  | nil => exact .inr ⟨rfl, by simp⟩
  | cons p ps ih =>
    unfold forEach Run.bind
    rcases check_cases host w p with ⟨e, h⟩ | ⟨h, hu⟩
    · rw [h]; exact .inl ⟨e, rfl⟩
    · rw [h]
      dsimp only
      rcases ih with ⟨e, h⟩ | ⟨h, hs⟩
      · exact .inl ⟨e, h⟩
      · refine .inr ⟨h, ?_⟩
        intro q hq
        rcases List.mem_cons.1 hq with rfl | hq
        · exact hu
        · exact hs q hq

/-- What creating one file does. -/
theorem create_cases (h : Handler) (host : Host) (p : Str) (w : World) :
    (∃ o, create h host p w = (w, o) ∧ o ≠ .ok ()) ∨
      ∃ c pkg, getConfig h host p = some (.ok c) ∧
        getPkg h host c p (if isV2 c then defaultPackageV2 else defaultPackage) = .ok pkg ∧
        create h host p w = writeFile host (located host p) (content c p pkg) w := by
  unfold create Run.bind
  cases hc : getConfig h host p with
  | none => exact .inl ⟨_, rfl, by simp⟩
  | some r =>
    cases r with
    | error e => exact .inl ⟨_, rfl, by simp⟩
    | ok c =>
      dsimp only [Run.liftOption, Run.lift, Run.pure]
      cases hg : getPkg h host c p (if isV2 c then defaultPackageV2 else defaultPackage) with
      | error e => exact .inl ⟨_, rfl, by simp⟩
      | ok pkg => exact .inr ⟨c, pkg, rfl, hg, rfl⟩

theorem writeFile_cases (host : Host) (path data : Str) (w : World) :
    (writeFile host path data w).1.out = w.out ∧
    (writeFile host path data w).1.writes = w.writes ++ [(path, data)] ∧
    (∀ q, q ≠ path → (writeFile host path data w).1.disk q = w.disk q) ∧
    ((writeFile host path data w).2 = .ok () → (writeFile host path data w).1.disk path = some data) := by
  unfold writeFile
  dsimp only
  cases host.writeFile path data with
  | ok u =>
    refine ⟨rfl, rfl, fun q hq => ?_, fun _ => ?_⟩
    · simp [Disk.set, hq]
    · simp [Disk.set]
  | error e =>
    obtain ⟨e, left⟩ := e
    refine ⟨rfl, rfl, fun q hq => ?_, fun h => (by cases h)⟩
    simp [Disk.set, hq]

theorem creates_frame (h : Handler) (host : Host) (ps : List Str) (w : World) :
    (forEach (create h host) ps w).1.out = w.out ∧
    (∃ ws, (forEach (create h host) ps w).1.writes = w.writes ++ ws ∧
      ∀ x ∈ ws, ∃ p ∈ ps, x.1 = located host p) ∧
    ∀ q, (∀ p ∈ ps, q ≠ located host p) → (forEach (create h host) ps w).1.disk q = w.disk q := by
  induction ps generalizing w with
  | nil => exact ⟨rfl, ⟨[], by simp [forEach, Run.pure], by simp⟩, fun _ _ => rfl⟩
  | cons p ps ih =>
    have step : (create h host p w).1.out = w.out ∧
        (∃ ws, (create h host p w).1.writes = w.writes ++ ws ∧
          ∀ x ∈ ws, x.1 = located host p) ∧
        ∀ q, q ≠ located host p → (create h host p w).1.disk q = w.disk q := by
      rcases create_cases h host p w with ⟨o, ho, _⟩ | ⟨c, pkg, _, _, he⟩
      · rw [ho]; exact ⟨rfl, ⟨[], by simp, by simp⟩, fun _ _ => rfl⟩
      · rw [he]
        obtain ⟨a, b, c', _⟩ := writeFile_cases host (located host p) (content c p pkg) w
        exact ⟨a, ⟨_, b, by simp⟩, c'⟩
    unfold forEach Run.bind
    revert step
    cases hr : create h host p w with
    | mk w1 o =>
      rintro ⟨a, ⟨ws, b, b'⟩, c⟩
      cases o with
      | ok u =>
        obtain ⟨a2, ⟨ws2, b2, b2'⟩, c2⟩ := ih w1
        dsimp only at a b c ⊢
        refine ⟨a2.trans a, ⟨ws ++ ws2, by rw [b2, b, List.append_assoc], ?_⟩, ?_⟩
        · intro x hx
          rcases List.mem_append.1 hx with hx | hx
          · exact ⟨p, by simp, b' x hx⟩
          · obtain ⟨q, hq, e⟩ := b2' x hx
            exact ⟨q, by simp [hq], e⟩
        · intro q hq
          rw [c2 q fun r hr => hq r (by simp [hr]), c q (hq p (by simp))]
      | error e =>
        dsimp only at a b c ⊢
        exact ⟨a, ⟨ws, b, fun x hx => ⟨p, by simp, b' x hx⟩⟩, fun q hq => c q (hq p (by simp))⟩
      | crash =>
        dsimp only at a b c ⊢
        exact ⟨a, ⟨ws, b, fun x hx => ⟨p, by simp, b' x hx⟩⟩, fun q hq => c q (hq p (by simp))⟩

/-- What is to be in a created file. -/
def Fresh (h : Handler) (host : Host) (p text : Str) : Prop :=
  ∃ c pkg, getConfig h host p = some (.ok c) ∧
    getPkg h host c p (if isV2 c then defaultPackageV2 else defaultPackage) = .ok pkg ∧
    text = content c p pkg

theorem creates_ok {h : Handler} {host : Host} {ps : List Str} {w w' : World}
    (ho : forEach (create h host) ps w = (w', .ok ())) :
    ∀ p ∈ ps, ∃ p' ∈ ps, located host p' = located host p ∧
      ∃ text, Fresh h host p' text ∧ w'.disk (located host p) = some text := by
  induction ps generalizing w with
  | nil => simp
  | cons p ps ih =>
    unfold forEach at ho
    obtain ⟨w1, u, h1, h2⟩ := bind_ok.1 ho
    have ih := ih h2
    intro q hq
    have later : ∀ r ∈ ps, located host r = located host q → ∃ p' ∈ p :: ps, located host p' = located host q ∧
        ∃ text, Fresh h host p' text ∧ w'.disk (located host q) = some text := by
      intro r hr e
      obtain ⟨p', hp', e', text, ht, hd⟩ := ih r hr
      exact ⟨p', by simp [hp'], e'.trans e, text, ht, by rw [← e]; exact hd⟩
    rcases List.mem_cons.1 hq with rfl | hq
    · rcases Classical.em (∃ r ∈ ps, located host r = located host q) with ⟨r, hr, e⟩ | hno
      · exact later r hr e
      · rcases create_cases h host q w with ⟨o, ho, hne⟩ | ⟨c, pkg, hc, hg, he⟩
        · rw [ho] at h1
          cases h1
          exact absurd rfl hne
        · obtain ⟨_, _, _, a4⟩ := writeFile_cases host (located host q) (content c q pkg) w
          rw [he] at h1
          rw [h1] at a4
          refine ⟨q, by simp, rfl, _, ⟨c, pkg, hc, hg, rfl⟩, ?_⟩
          have := (creates_frame h host ps w1).2.2 (located host q) (fun r hr e => hno ⟨r, hr, e.symm⟩)
          rw [h2] at this
          rw [this]
          exact a4 rfl
    · exact later q hq rfl

/-! ## The configuration -/

/-- What is known of the configuration of a directory. -/
structure Placed (c : Settings.Config) (d : Str) : Prop where
  above : Within d c.dirPath
  bases : ∀ k b, (k, b) ∈ c.dirPathToBasePackage → IsAbsPath k ∧ b ≠ []
  keys : (c.dirPathToBasePackage.map (·.1)).Nodup
  header : CleanLines c.lint.fileHeader ∧ Trimmed c.lint.fileHeader
  lower : toLower c.lint.group = c.lint.group

theorem packagesOf_ok {d : Str} (hd : IsAbsPath d) (l : List (Str × Str)) (hl : ∀ x ∈ l, x.2 ≠ [])
    (m : GoMap Str Str) (hm : ∀ x ∈ m, IsAbsPath x.1 ∧ x.2 ≠ []) (hk : (m.map (·.1)).Nodup) :
    (∀ x ∈ l.foldl (fun m x => GoMap.set m (clean (joinPath [d, x.1])) x.2) m, IsAbsPath x.1 ∧ x.2 ≠ []) ∧
      ((l.foldl (fun m x => GoMap.set m (clean (joinPath [d, x.1])) x.2) m).map (·.1)).Nodup := by
  induction l generalizing m with
  | nil => exact ⟨hm, hk⟩
  | cons x l ih =>
    rw [List.foldl_cons]
    refine ih (fun y hy => hl y (by simp [hy])) _ ?_ (GoMap.set_keys_nodup hk _ _)
    intro y hy
    have hg := GoMap.get?_of_mem (GoMap.set_keys_nodup hk (clean (joinPath [d, x.1])) x.2) (k := y.1) (v := y.2) hy
    rw [GoMap.get?_set] at hg
    split at hg
    · rename_i e
      injection hg with hg
      rw [← e, ← hg]
      refine ⟨?_, hl x (by simp)⟩
      rw [clean_of_isAbsPath (joinPath_isAbsPath hd _)]
      exact joinPath_isAbsPath hd _
    · exact hm _ (GoMap.get?_some_mem hg)

theorem placed_of {s : SortSlice} {h : Settings.Host} {develMode : Bool} {e : Settings.ExternalConfig}
    {d d0 : Str} {c : Settings.Config} (hd : IsAbsPath d0) (hw : Within d d0)
    (hc : Settings.externalConfigToConfig s h develMode e d0 = .ok c) : Placed c d := by
  obtain ⟨header, hh, hc'⟩ : ∃ header, Settings.fileHeaderOf h e d0 = .ok header ∧
      c.lint.fileHeader = header := by
    unfold Settings.externalConfigToConfig at hc
    split at hc
    · cases hc
    · split at hc
      · cases hc
      · dsimp only at hc
        split at hc
        · cases hc
        · split at hc
          · cases hc
          · rename_i header hh
            refine ⟨header, hh, ?_⟩
            unfold Settings.finishConfig at hc
            split at hc
            · cases hc
            · dsimp only at hc
              split at hc
              · cases hc
              · split at hc
                · cases hc
                · injection hc with hc
                  rw [← hc]; rfl
  rcases Settings.externalConfigToConfig_spec s h develMode e hd with ⟨ha, text, gs, ht, hf, hc2⟩ | ⟨_, err, hc2⟩
  · rw [hc2] at hc
    injection hc with hc
    subst hc
    have hp := packagesOf_ok hd e.createPackages (fun x hx => (ha.packages x hx).2.2) [] (by simp) (by simp)
    refine ⟨hw, fun k b hk => hp.1 (k, b) hk, hp.2, ?_, toLower_idem _⟩
    rw [hc']
    exact Settings.fileHeaderOf_clean hh
  · rw [hc2] at hc; cases hc

theorem absDir_isAbsPath {host : Host} (hwd : IsAbsPath host.wd) {p : Str} (hp : p ≠ []) :
    IsAbsPath (absDir host p) := by
  obtain ⟨cs, hc, e⟩ := File.absClean_isAbsPath hwd hp
  unfold absDir
  rw [e]
  rcases List.eq_nil_or_concat cs with rfl | ⟨cs, c, rfl⟩
  · exact ⟨[], hc, dir_root⟩
  · rw [List.concat_eq_append] at hc ⊢
    exact ⟨cs, (components_append.1 hc).1, dir_snoc hc⟩

theorem getConfig_placed {h : Handler} {host : Host} {p : Str} {c : Settings.Config}
    (hd : IsAbsPath (absDir host p)) (hc : getConfig h host p = some (.ok c)) :
    Placed c (absDir host p) := by
  unfold getConfig at hc
  by_cases hdata : h.configData ≠ []
  · rw [if_pos hdata] at hc
    injection hc with hc
    unfold Settings.getForData at hc
    rw [isAbs_of_isAbsPath hd, clean_of_isAbsPath hd] at hc
    simp only [Bool.not_true, Bool.false_eq_true, if_false] at hc
    cases hj : Settings.jsonUnmarshalStrict h.configData with
    | error e => rw [hj] at hc; cases hc
    | ok e =>
      rw [hj] at hc
      exact placed_of hd (within_refl hd) hc
  · rw [if_neg hdata] at hc
    unfold Settings.getForDir at hc
    obtain ⟨r, hr, ho⟩ := Settings.getFilePathForDirOf_outcome h.settings (isAbs_of_isAbsPath hd)
    rw [hr] at hc
    rw [clean_of_isAbsPath hd] at ho
    rcases ho with ⟨f, d0, rfl, hne, hn, hf, _⟩ | ⟨rfl, hn⟩ | ⟨e, _, _, _, rfl, _⟩
    · dsimp only at hc
      rw [if_neg hne] at hc
      injection hc with hc
      obtain ⟨cs, name, hcs, hname, rfl, rfl, hs⟩ := hf
      have hcn : Components (cs ++ [name]) := by
        rw [components_append, components_single]
        refine ⟨hcs, ?_⟩
        rcases hname with rfl | rfl <;> refine ⟨?_, ?_, ?_, ?_⟩ <;> decide
      unfold Settings.getConfig at hc
      rw [isAbs_absPath, clean_absPath hcn, dir_snoc hcn] at hc
      simp only [Bool.not_true, Bool.false_eq_true, if_false] at hc
      split at hc
      · cases hc
      · exact placed_of ⟨cs, hcs, rfl⟩ hn.1 hc
    · dsimp only at hc
      rw [if_pos rfl] at hc
      injection hc with hc
      exact placed_of hd (within_refl hd) hc
    · cases hc

theorem getConfig_root {h : Handler} {host : Host} {p : Str} {c : Settings.Config}
    (hd : IsAbsPath (absDir host p)) (hc : getConfig h host p = some (.ok c)) :
    (h.configData ≠ [] → c.dirPath = absDir host p) ∧
    (h.configData = [] → NearestConfig h.settings.stat (absDir host p) c.dirPath ∨
      c.dirPath = absDir host p ∧ ∀ d, Within (absDir host p) d → NoConfig h.settings.stat d) := by
  have root : ∀ {e d0}, IsAbsPath d0 →
      Settings.externalConfigToConfig h.srt h.settings h.develMode e d0 = .ok c → c.dirPath = d0 := by
    intro e d0 hd hc
    rcases Settings.externalConfigToConfig_spec h.srt h.settings h.develMode e hd with
      ⟨ha, text, gs, ht, hf, hc2⟩ | ⟨_, err, hc2⟩
    · rw [hc2] at hc
      cases hc
      rfl
    · rw [hc2] at hc; cases hc
  unfold getConfig at hc
  by_cases hdata : h.configData ≠ []
  · rw [if_pos hdata] at hc
    injection hc with hc
    refine ⟨fun _ => ?_, fun h => absurd h hdata⟩
    unfold Settings.getForData at hc
    rw [isAbs_of_isAbsPath hd, clean_of_isAbsPath hd] at hc
    simp only [Bool.not_true, Bool.false_eq_true, if_false] at hc
    cases hj : Settings.jsonUnmarshalStrict h.configData with
    | error e => rw [hj] at hc; cases hc
    | ok e =>
      rw [hj] at hc
      exact root hd hc
  · rw [if_neg hdata] at hc
    refine ⟨fun h => absurd h hdata, fun _ => ?_⟩
    unfold Settings.getForDir at hc
    obtain ⟨r, hr, ho⟩ := Settings.getFilePathForDirOf_outcome h.settings (isAbs_of_isAbsPath hd)
    rw [hr] at hc
    rw [clean_of_isAbsPath hd] at ho
    rcases ho with ⟨f, d0, rfl, hne, hn, hf, _⟩ | ⟨rfl, hn⟩ | ⟨e, _, _, _, rfl, _⟩
    · dsimp only at hc
      rw [if_neg hne] at hc
      injection hc with hc
      obtain ⟨cs, name, hcs, hname, rfl, rfl, hs⟩ := hf
      have hcn : Components (cs ++ [name]) := by
        rw [components_append, components_single]
        refine ⟨hcs, ?_⟩
        rcases hname with rfl | rfl <;> refine ⟨?_, ?_, ?_, ?_⟩ <;> decide
      unfold Settings.getConfig at hc
      rw [isAbs_absPath, clean_absPath hcn, dir_snoc hcn] at hc
      simp only [Bool.not_true, Bool.false_eq_true, if_false] at hc
      split at hc
      · cases hc
      · rw [root ⟨cs, hcs, rfl⟩ hc]
        exact .inl hn
    · dsimp only at hc
      rw [if_pos rfl] at hc
      injection hc with hc
      exact .inr ⟨root hd hc, hn⟩
    · cases hc

/-! ## The package -/

theorem prefix_of_within {d k : Str} (h : Within d k) : k <+: d := by
  obtain ⟨cs, ds, hc, rfl, rfl⟩ := h
  by_cases hcs : cs = []
  · subst hcs
    rw [absPath_nil, absPath_eq]
    exact ⟨_, rfl⟩
  · rw [absPath_ne_nil hcs, absPath_ne_nil (by simp [hcs]), List.flatMap_append]
    exact List.prefix_append ..

theorem longer_spec (d : Str) (l : List (Str × Str)) (e : Str × Str) :
    (l.foldl (longer d) e = e ∨ (l.foldl (longer d) e ∈ l ∧ (l.foldl (longer d) e).1 <+: d ∧
        e.1.length < (l.foldl (longer d) e).1.length)) ∧
      e.1.length ≤ (l.foldl (longer d) e).1.length ∧
      ∀ x ∈ l, x.1 <+: d → x.1.length ≤ (l.foldl (longer d) e).1.length := by
  induction l generalizing e with
  | nil => exact ⟨.inl rfl, Nat.le_refl _, by simp⟩
  | cons x l ih =>
    rw [List.foldl_cons]
    obtain ⟨h1, h2, h3⟩ := ih (longer d e x)
    have hx : (longer d e x = e ∧ (x.1 <+: d → x.1.length ≤ e.1.length)) ∨
        (longer d e x = x ∧ x.1 <+: d ∧ e.1.length < x.1.length) := by
      unfold longer
      by_cases hp : hasPrefix d x.1 = true
      · have hp' : x.1 <+: d := List.isPrefixOf_iff_prefix.1 hp
        rw [hp]
        by_cases hl : x.1.length > e.1.length
        · exact .inr ⟨by simp [hl], hp', hl⟩
        · exact .inl ⟨by simp [hl], fun _ => by omega⟩
      · refine .inl ⟨by simp [hp], fun h => absurd (List.isPrefixOf_iff_prefix.2 h) hp⟩
    rcases hx with ⟨hx, hx'⟩ | ⟨hx, hx', hx''⟩ <;> rw [hx] at h1 h2 h3 ⊢
    · refine ⟨?_, h2, ?_⟩
      · rcases h1 with h1 | ⟨a, b, c⟩
        · exact .inl h1
        · exact .inr ⟨by simp [a], b, c⟩
      · intro y hy hp
        rcases List.mem_cons.1 hy with rfl | hy
        · exact Nat.le_trans (hx' hp) h2
        · exact h3 y hy hp
    · refine ⟨?_, by omega, ?_⟩
      · rcases h1 with h1 | ⟨a, b, c⟩
        · rw [h1]; exact .inr ⟨by simp, hx', hx''⟩
        · exact .inr ⟨by simp [a], b, by omega⟩
      · intro y hy hp
        rcases List.mem_cons.1 hy with rfl | hy
        · exact h2
        · exact h3 y hy hp

theorem prefix_eq {a b d : Str} (ha : a <+: d) (hb : b <+: d) (h : a.length = b.length) : a = b := by
  obtain ⟨s, rfl⟩ := ha
  obtain ⟨t, ht⟩ := hb
  exact (List.append_inj ht h.symm).1.symm

theorem nodup_keys {α β : Type} {l : List (α × β)} (h : (l.map (·.1)).Nodup) {x y : α × β}
    (hx : x ∈ l) (hy : y ∈ l) (e : x.1 = y.1) : x = y := by
  induction l with
  | nil => cases hx
  | cons z l ih =>
    rw [List.map_cons, List.nodup_cons] at h
    rcases List.mem_cons.1 hx with rfl | hx <;> rcases List.mem_cons.1 hy with rfl | hy
    · rfl
    · exact absurd (List.mem_map.2 ⟨y, hy, e.symm⟩) h.1
    · exact absurd (List.mem_map.2 ⟨x, (by assumption), e⟩) h.1
    · exact ih h.2 hx hy

theorem longest_perm {d : Str} {l l' : List (Str × Str)} (hn : (l.map (·.1)).Nodup) (hp : l.Perm l') :
    l.foldl (longer d) ([], []) = l'.foldl (longer d) ([], []) := by
  obtain ⟨a1, _, a3⟩ := longer_spec d l ([], [])
  obtain ⟨b1, _, b3⟩ := longer_spec d l' ([], [])
  rcases a1 with a1 | ⟨a, a', a''⟩ <;> rcases b1 with b1 | ⟨b, b', b''⟩
  · rw [a1, b1]
  · have := a3 _ (hp.mem_iff.2 b) b'
    rw [a1] at this
    dsimp only at this b''
    omega
  · have := b3 _ (hp.mem_iff.1 a) a'
    rw [b1] at this
    dsimp only at this a''
    omega
  · have h1 := a3 _ (hp.mem_iff.2 b) b'
    have h2 := b3 _ (hp.mem_iff.1 a) a'
    exact nodup_keys hn a (hp.mem_iff.2 b) (prefix_eq a' b' (by omega))

theorem through_of_within {d k : Str} (h : Within d k) : ∃ names, Through d k names := by
  obtain ⟨cs, ds, h⟩ := h
  exact ⟨ds, cs, h⟩

theorem rel_through {d k : Str} {names : List Str} (h : Through d k names) :
    rel k d = some (if names = [] then s%"." else join s%"/" names) := by
  obtain ⟨cs, hc, rfl, rfl⟩ := h
  by_cases hn : names = []
  · subst hn
    rw [List.append_nil] at hc ⊢
    rw [if_pos rfl]
    unfold rel
    simp
  · rw [if_neg hn]
    exact rel_within hc hn

theorem getPkgFromRel_through {names : List Str} (hn : names ≠ []) (hc : Components names) (base default : Str) :
    getPkgFromRel (join s%"/" names) base default =
      if base = [] then join s%"." names else join s%"." (base :: names) := by
  have hs : splitChar '/' (join s%"/" names) = names := splitChar_join '/' hn (noSlash hc)
  unfold getPkgFromRel
  rw [if_neg]
  · rw [hs]
    cases names with
    | nil => exact absurd rfl hn
    | cons n ns => simp [join]
  · intro e
    rw [e] at hs
    have : names = [s%"."] := hs.symm
    subst this
    exact (hc _ (by simp)).2.2.1 rfl

theorem within_of_longer {d k k' : Str} (h : Within d k) (h' : Within d k') (hl : k'.length ≤ k.length) :
    Within k k' := by
  obtain ⟨a, b, hab, rfl, rfl⟩ := h
  obtain ⟨a', b', hab', rfl, e⟩ := h'
  have e := absPath_inj hab hab' e
  rcases List.append_eq_append_iff.1 e with ⟨t, h1, h2⟩ | ⟨t, h1, h2⟩
  · -- `a' = a ++ t`
    subst h1
    by_cases ht : t = []
    · subst ht
      rw [List.append_nil] at hab' ⊢
      exact within_refl ⟨a, (components_append.1 hab).1, rfl⟩
    · exfalso
      obtain ⟨c, cs, rfl⟩ := List.exists_cons_of_ne_nil ht
      have hct := (components_append.1 (components_append.1 hab').1).2
      have hc := (components_cons.1 hct).1
      have hne := List.length_pos_iff.2 hc.1
      rw [absPath_eq, absPath_eq] at hl
      by_cases ha : a = []
      · subst ha
        rw [List.nil_append, ← flatMap_slash (by simp)] at hl
        simp [join] at hl
        exact hc.1 hl.1
      · rw [← flatMap_slash ha, ← flatMap_slash (by simp)] at hl
        simp at hl
        omega
  · subst h1
    exact ⟨a', t, (components_append.1 hab).1, rfl, rfl⟩

/-- The package of a file in a directory, if the directories with base packages that are
beginnings of its path contain it. -/
theorem getPkg_spec {h : Handler} {host : Host} {c : Settings.Config} {p default : Str}
    (hp : h.pkg = []) (hc : Placed c (absDir host p))
    (hs : ∀ k base, GoMap.get? c.dirPathToBasePackage k = some base → k <+: absDir host p →
      Within (absDir host p) k) :
    ∃ pkg, getPkg h host c p default = .ok pkg ∧
      PackageFor c.dirPathToBasePackage c.dirPath (absDir host p) default pkg := by
  have hroot : c.dirPath ≠ [] := by
    obtain ⟨cs, ds, _, e, _⟩ := hc.above
    rw [e, absPath_eq]; simp
  unfold getPkg
  rw [if_neg (by simp [hp]), if_neg hroot]
  dsimp only
  rw [← longest_perm (d := absDir host p) hc.keys (h.order.perm _ _).symm]
  obtain ⟨h1, _, h3⟩ := longer_spec (absDir host p) c.dirPathToBasePackage ([], [])
  generalize c.dirPathToBasePackage.foldl (longer (absDir host p)) ([], []) = r at h1 h3
  rcases h1 with rfl | ⟨hr, hr', hr''⟩
  · rw [if_neg (by simp)]
    have hun : Unmapped c.dirPathToBasePackage (absDir host p) := by
      intro k base hk hw
      have hm := GoMap.get?_some_mem hk
      have := h3 _ hm (prefix_of_within hw)
      obtain ⟨cs, _, e⟩ := (hc.bases k base hm).1
      rw [e, absPath_eq] at this
      simp at this
    rw [if_neg (by
      rw [show hasPrefix (absDir host p) c.dirPath = true from
        List.isPrefixOf_iff_prefix.2 (prefix_of_within hc.above)]
      simp)]
    obtain ⟨names, hn⟩ := through_of_within hc.above
    rw [rel_through hn]
    dsimp only
    by_cases hnn : names = []
    · subst hnn
      refine ⟨default, rfl, .top hun ?_⟩
      obtain ⟨cs, _, e1, e2⟩ := hn
      rw [e1, e2, List.append_nil]
    · rw [if_neg hnn]
      refine ⟨_, congrArg _ ?_, .unmapped hun hn hnn⟩
      obtain ⟨cs, hcs, _⟩ := hn
      rw [getPkgFromRel_through hnn (components_append.1 hcs).2, if_pos rfl]
  · obtain ⟨k, base⟩ := r
    have hk := hc.bases k base hr
    have hg := GoMap.get?_of_mem hc.keys hr
    rw [if_pos (by
      obtain ⟨cs, _, e⟩ := hk.1
      dsimp only
      rw [e, absPath_eq]; simp)]
    dsimp only at hr' h3 ⊢
    have hw := hs k base hg hr'
    obtain ⟨names, hn⟩ := through_of_within hw
    rw [rel_through hn]
    dsimp only
    refine ⟨join s%"." (base :: names), congrArg _ ?_, .mapped hg hn ?_⟩
    · by_cases hnn : names = []
      · subst hnn
        unfold getPkgFromRel
        rw [if_pos rfl, if_pos rfl, if_neg hk.2]
        simp [join]
      · rw [if_neg hnn]
        obtain ⟨cs, hcs, _⟩ := hn
        rw [getPkgFromRel_through hnn (components_append.1 hcs).2, if_neg hk.2]
    · intro k' base' hk' hw'
      exact within_of_longer hw hw' (h3 _ (GoMap.get?_some_mem hk') (prefix_of_within hw'))

end Verif.Create
