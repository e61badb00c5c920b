import Verif.Proof.Scope
import Verif.Props.LintConfig
import Verif.Props.LintSuppress
import Verif.Spec.RuleChange

/-! # Runs under different configurations -/

namespace Verif.Lint

open Verif Proto Spec Props

theorem okOf_id (l : Linter) (dirPath : Str) (ds : List FileDescriptor) :
    ∀ f ∈ okOf (l.check dirPath ds), f.lintID = l.id := by
  intro f hf
  unfold Linter.check at hf
  dsimp only at hf
  split at hf
  · cases hf
  · split at hf
    · cases hf
    · obtain ⟨ev, _, h⟩ := List.mem_filterMap.1 hf
      unfold Linter.report at h
      split at h
      · cases h
      · split at h
        · cases h
        · cases h; rfl

/-- The file under the configuration. -/
def FileDescriptor.at (c : Settings.Config) (d : FileDescriptor) : FileDescriptor := { d with config := c }

theorem suppressable_id {env : Env} {l : Linter} (hl : l ∈ allLinters env) (h : l.suppressableAnnotation ≠ []) :
    l.id ∈ suppressableRules := by
  have hm : (l.id, l.suppressableAnnotation) ∈
      ((allLinters env).filter fun l => l.suppressableAnnotation ≠ []).map
        (fun l => (l.id, l.suppressableAnnotation)) :=
    List.mem_map.2 ⟨l, List.mem_filter.2 ⟨hl, decide_eq_true h⟩, rfl⟩
  rw [C28_rules] at hm
  have := List.mem_map_of_mem (f := Prod.fst) hm
  exact this

open Classical in
theorem check_at {env : Env} {l : Linter} (hl : l ∈ allLinters env) {c c' : Settings.Config}
    (h : SameFor l.id c c') (dirPath : Str) {ds : List FileDescriptor} (hd : ∀ d ∈ ds, d.config = c) :
    l.check dirPath (ds.map (·.at c')) = l.check dirPath ds := by
  let m : Change := ⟨fun _ => c', decide (c'.lint.fileHeader = c.lint.fileHeader),
    decide (c'.lint.javaPackagePrefix = c.lint.javaPackagePrefix),
    decide (c'.lint.allowSuppression = c.lint.allowSuppression)⟩
  have hm : m.apply c = c' := by
    have e1 : (if m.keepsHeader then c.lint.fileHeader else c'.lint.fileHeader) = c'.lint.fileHeader := by
      split
      · rename_i hk; exact (of_decide_eq_true hk).symm
      · rfl
    have e2 : (if m.keepsPrefix then c.lint.javaPackagePrefix else c'.lint.javaPackagePrefix) =
        c'.lint.javaPackagePrefix := by
      split
      · rename_i hk; exact (of_decide_eq_true hk).symm
      · rfl
    have e3 : (if m.keepsSuppression then c.lint.allowSuppression else c'.lint.allowSuppression) =
        c'.lint.allowSuppression := by
      split
      · rename_i hk; exact (of_decide_eq_true hk).symm
      · rfl
    unfold Change.apply
    show ({ c' with lint := { c'.lint with fileHeader := _, javaPackagePrefix := _, allowSuppression := _ } } :
      Settings.Config) = c'
    rw [e1, e2, e3]
  have hk : m.Keeps l := ⟨fun e => decide_eq_true (h.header e), fun e => decide_eq_true (h.javaPrefix e),
    fun e => decide_eq_true (h.suppression (suppressable_id hl e))⟩
  rw [← blind_all env l hl m hk dirPath ds]
  congr 1
  refine List.map_congr_left fun d hdm => ?_
  unfold FileDescriptor.at FileDescriptor.changed
  rw [hd d hdm, hm]

theorem descriptorsOf_under (host : Host) (ps : File.ProtoSet) (abs : Bool) (c : Settings.Config)
    (fs : List File.ProtoFile) :
    descriptorsOf host (under c ps) abs fs = (descriptorsOf host ps abs fs).map (·.map (·.at c)) := by
  induction fs with
  | nil => rfl
  | cons f fs ih =>
    unfold descriptorsOf
    have : descriptorOf host (under c ps) abs f = (descriptorOf host ps abs f).map (·.at c) := by
      unfold descriptorOf
      dsimp only
      cases host.parse f.path (if abs then f.path else f.displayPath) <;> rfl
    rw [this, ih]
    cases descriptorOf host ps abs f with
    | error e => rfl
    | ok d =>
      show _ = Except.map _ (match descriptorsOf host ps abs fs with
        | .error e => .error e
        | .ok ds => .ok (d :: ds))
      cases descriptorsOf host ps abs fs <;> rfl

theorem parsedOf_under (host : Host) (ps : File.ProtoSet) (abs : Bool) (c : Settings.Config)
    (fs : List File.ProtoFile) : parsedOf host (under c ps) abs fs = (parsedOf host ps abs fs).map (·.at c) := by
  unfold parsedOf
  rw [descriptorsOf_under]
  cases descriptorsOf host ps abs fs <;> rfl

theorem parsedOf_own {host : Host} {ps : File.ProtoSet} {abs : Bool} {fs : List File.ProtoFile} :
    ∀ d ∈ parsedOf host ps abs fs, d.config = ps.config := by
  intro d hd
  unfold parsedOf at hd
  cases hx : descriptorsOf host ps abs fs with
  | error e => rw [hx] at hd; cases hd
  | ok ds =>
    rw [hx] at hd
    obtain ⟨f, _, h⟩ := descriptorsOf_mem hx d hd
    unfold descriptorOf at h
    dsimp only at h
    cases hp : host.parse f.path (if abs then f.path else f.displayPath) with
    | error e => rw [hp] at h; cases h
    | ok x => rw [hp] at h; cases h; rfl

theorem kept_same {host : Host} {rule : Str} {c c' : Settings.Config} (h : SameFor rule c c') (filename : Str) :
    kept host c'.dirPath c'.lint.ignoreIDToFilePaths rule filename =
      kept host c.dirPath c.lint.ignoreIDToFilePaths rule filename := by
  unfold kept IgnoredFor
  rw [h.dir, h.ignores]

/-- What a rule says of a directory, under both configurations. -/
theorem check_under {env : Env} {l : Linter} (hl : l ∈ allLinters env) {host : Host} {ps : File.ProtoSet}
    {c' : Settings.Config} (h : SameFor l.id ps.config c') {abs : Bool} (dirPath : Str) (fs : List File.ProtoFile) :
    l.check dirPath ((parsedOf host (under c' ps) abs fs).filter fun d =>
        kept host c'.dirPath c'.lint.ignoreIDToFilePaths l.id d.filename) =
      l.check dirPath ((parsedOf host ps abs fs).filter fun d =>
        kept host ps.config.dirPath ps.config.lint.ignoreIDToFilePaths l.id d.filename) := by
  rw [parsedOf_under, List.filter_map]
  simp only [kept_same h]
  exact check_at hl h dirPath fun d hd => parsedOf_own d (List.mem_filter.1 hd).1

theorem linter_unique {env : Env} {l l' : Linter} (hl : l ∈ allLinters env) (hl' : l' ∈ allLinters env)
    (he : l.id = l'.id) : l = l' := by
  have hn := (C24_rules env).1
  generalize allLinters env = ls at *
  induction ls with
  | nil => cases hl
  | cons x xs ih =>
    rw [List.map_cons, List.nodup_cons] at hn
    rcases List.mem_cons.1 hl with rfl | h1 <;> rcases List.mem_cons.1 hl' with rfl | h2
    · rfl
    · exact absurd (he ▸ List.mem_map_of_mem h2) hn.1
    · exact absurd (he ▸ List.mem_map_of_mem h1) hn.1
    · exact ih h1 h2 hn.2

/-- Only the rule itself reports failures under its name. -/
theorem count_own {ls : List Linter} (hn : (ls.map (·.id)).Nodup) {g : Linter → List Text.Failure}
    (hg : ∀ l ∈ ls, ∀ f ∈ g l, f.lintID = l.id) {l : Linter} (hl : l ∈ ls) {f : Text.Failure}
    (hf : f.lintID = l.id) : (ls.flatMap g).count f = (g l).count f := by
  induction ls with
  | nil => cases hl
  | cons x xs ih =>
    rw [List.map_cons, List.nodup_cons] at hn
    rw [List.flatMap_cons, List.count_append]
    rcases List.mem_cons.1 hl with rfl | h
    · have : (xs.flatMap g).count f = 0 := by
        rw [List.count_eq_zero]
        intro hm
        obtain ⟨l', hl', hm⟩ := List.mem_flatMap.1 hm
        have := hg l' (List.mem_cons_of_mem _ hl') f hm
        exact hn.1 (by rw [← hf, this]; exact List.mem_map_of_mem hl')
      rw [this, Nat.add_zero]
    · have : (g x).count f = 0 := by
        rw [List.count_eq_zero]
        intro hm
        have := hg x List.mem_cons_self f hm
        exact hn.1 (by rw [← this, hf]; exact List.mem_map_of_mem h)
      rw [this, Nat.zero_add]
      exact ih hn.2 (fun l hl => hg l (List.mem_cons_of_mem _ hl)) h

theorem getLinters_of {env : Env} {c : Settings.LintConfig} {ls : List Linter} (h : getLinters env c = .ok ls) :
    (∀ l ∈ ls, l ∈ allLinters env) ∧ (ls.map (·.id)).Nodup ∧ ∀ id, id ∈ ls.map (·.id) ↔ AsksRule c id := by
  rcases getLinters_spec env c with ⟨_, ls', h1, h2⟩ | ⟨_, e, h1⟩
  · rw [h] at h1; cases h1; exact h2
  · rw [h] at h1; cases h1

theorem sound_under {host : Host} {ps : File.ProtoSet} {abs : Bool} (hs : Sound host ps abs)
    {c' : Settings.Config} (hc : c'.dirPath = ps.config.dirPath) : Sound host (under c' ps) abs :=
  ⟨hs.parse, fun p hp f hf => by
    obtain ⟨h1, path, h2, h3⟩ := hs.files p hp f hf
    exact ⟨h1, path, h2, show Below path c'.dirPath by rw [hc]; exact h3⟩⟩

/-- Both runs report the same under the name of a rule that both ask for and set up alike. -/
theorem run_same {env : Env} {host : Host} {ps : File.ProtoSet} {abs : Bool} (hs : Sound host ps abs)
    {c' : Settings.Config} {fs fs' : List Text.Failure} (h : run env host ps abs = some (.ok fs))
    (h' : run env host (under c' ps) abs = some (.ok fs')) {f : Text.Failure}
    (hsame : SameFor f.lintID ps.config c') (ha : AsksRule ps.config.lint f.lintID)
    (ha' : AsksRule c'.lint f.lintID) : fs'.count f = fs.count f := by
  obtain ⟨ls, hl, hok, rfl⟩ := (run_dirs_iff hs).1 h
  obtain ⟨ls', hl', hok', rfl⟩ := (run_dirs_iff (sound_under hs hsame.dir)).1 h'
  rw [(C18_sorted _).1.count_eq, (C18_sorted _).1.count_eq]
  obtain ⟨g1, g2, g3⟩ := getLinters_of hl
  obtain ⟨g1', g2', g3'⟩ := getLinters_of hl'
  obtain ⟨l, hlm, he⟩ := List.mem_map.1 ((g3 _).2 ha)
  obtain ⟨l', hlm', he'⟩ := List.mem_map.1 ((g3' _).2 ha')
  have hll : l = l' := linter_unique (g1 l hlm) (g1' l' hlm') (he.trans he'.symm)
  subst hll
  refine count_flatMap_congr fun p hp => ?_
  unfold saysOf
  rw [count_own g2 (fun _ _ => okOf_id _ _ _) hlm he.symm, count_own g2' (fun _ _ => okOf_id _ _ _) hlm' he.symm]
  rw [← he] at hsame
  rw [show (under c' ps).config = c' from rfl, check_under (g1 l hlm) hsame]

open Classical in
/-- With fewer rules. -/
theorem run_fewer {env : Env} {host : Host} {ps : File.ProtoSet} {abs : Bool} (hs : Sound host ps abs)
    {c' : Settings.Config} {fs : List Text.Failure} (h : run env host ps abs = some (.ok fs))
    (hdir : c'.dirPath = ps.config.dirPath) (hk : KnownNames c'.lint)
    (hsub : ∀ rule, AsksRule c'.lint rule → AsksRule ps.config.lint rule ∧ SameFor rule ps.config c') :
    run env host (under c' ps) abs =
      some (.ok (fs.filter fun f => decide (AsksRule c'.lint f.lintID))) := by
  obtain ⟨ls, hl, hok, hfs⟩ := (run_dirs_iff hs).1 h
  obtain ⟨g1, g2, g3⟩ := getLinters_of hl
  obtain ⟨ls', hl'⟩ : ∃ ls', getLinters env c'.lint = .ok ls' := by
    rcases getLinters_spec env c'.lint with ⟨_, ls', h1, _⟩ | ⟨h1, _⟩
    · exact ⟨ls', h1⟩
    · exact absurd hk h1
  obtain ⟨g1', g2', g3'⟩ := getLinters_of hl'
  have hin : ∀ l ∈ ls', l ∈ ls ∧ SameFor l.id ps.config c' := by
    intro l hlm
    obtain ⟨ha, hsame⟩ := hsub l.id ((g3' _).1 (List.mem_map_of_mem hlm))
    obtain ⟨l0, hl0, he⟩ := List.mem_map.1 ((g3 _).2 ha)
    rw [linter_unique (g1' l hlm) (g1 l0 hl0) he.symm] at hsame ⊢
    exact ⟨hl0, hsame⟩
  have hrun : run env host (under c' ps) abs = some (.ok (Text.sortFailures
      ((ps.dirPathToFiles.filter fun p => Str.hasPrefix p.1 ps.dirPath).flatMap
        (saysOf host (under c' ps) abs ls')))) := by
    refine (run_dirs_iff (sound_under hs hdir)).2 ⟨ls', hl', fun p hp => ?_, rfl⟩
    obtain ⟨h1, h2⟩ := hok p hp
    refine ⟨?_, fun l hlm => ?_⟩
    · rw [descriptorsOf_under, parsedOf_under, h1]; rfl
    · rw [show (under c' ps).config = c' from rfl, check_under (g1' l hlm) (hin l hlm).2]
      exact h2 l (hin l hlm).1
  rw [hrun]
  congr 2
  symm
  refine C18_unique _ _ ?_ (List.Pairwise.filter _ (hfs ▸ (C18_sorted _).2))
  refine ((C18_sorted _).1.symm.trans ?_).symm
  rw [List.perm_iff_count]
  intro f
  by_cases ha : AsksRule c'.lint f.lintID
  · obtain ⟨ha0, hsame⟩ := hsub _ ha
    rw [run_same hs h hrun hsame ha0 ha]
    exact (List.count_filter (by simpa using ha)).symm
  · rw [List.count_eq_zero.2, List.count_eq_zero.2]
    · intro hm
      exact ha (by simpa using (List.mem_filter.1 hm).2)
    · intro hm
      exact ha (run_about (sound_under hs hdir) hrun f hm).1

end Verif.Lint
