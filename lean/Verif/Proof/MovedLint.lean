import Verif.Proof.MovedSet
import Verif.Proof.RuleChange
import Verif.Spec.Rename
import Verif.Spec.MovedRun

/-!
# A moved tree: linting
-/

namespace Verif.Lint

open Verif Proto Spec

theorem packagesSameInDir_dir (env : Env) (p p' : Str) (ds : List FileDescriptor) :
    packagesSameInDir env p ds = packagesSameInDir env p' ds := by
  unfold packagesSameInDir
  have hs : ∀ l, sortStrs (env.order.ord [s%"PACKAGES_SAME_IN_DIR", p] l) =
      sortStrs (env.order.ord [s%"PACKAGES_SAME_IN_DIR", p'] l) := fun l =>
    sortStrs_eq_of_perm ((env.order.perm _ l).trans (env.order.perm _ l).symm)
  simp only [hs]

theorem fileOptionsSameInDir_dir (env : Env) (name p p' : Str) (ds : List FileDescriptor) :
    fileOptionsSameInDir env name p ds = fileOptionsSameInDir env name p' ds := by
  unfold fileOptionsSameInDir
  have hs : ∀ l, sortStrs (env.order.ord [s%"FILE_OPTIONS_SAME_IN_DIR", p, name] l) =
      sortStrs (env.order.ord [s%"FILE_OPTIONS_SAME_IN_DIR", p', name] l) := fun l =>
    sortStrs_eq_of_perm ((env.order.perm _ l).trans (env.order.perm _ l).symm)
  simp only [hs]

/-- No rule looks at the path of the directory. -/
theorem addCheck_dir (env : Env) : ∀ l ∈ allLinters env, ∀ p p' ds, l.addCheck p ds = l.addCheck p' ds := by
  unfold allLinters
  simp only [List.forall_mem_cons]
  and_intros
  all_goals first
    | exact fun p p' ds => fileOptionsSameInDir_dir env _ p p' ds
    | exact fun p p' ds => packagesSameInDir_dir env p p' ds
    | exact fun _ _ _ => rfl
    | (intro l h; cases h)

theorem check_dir {env : Env} {l : Linter} (hl : l ∈ allLinters env) (p p' : Str) (ds : List FileDescriptor) :
    l.check p ds = l.check p' ds := by
  unfold Linter.check
  rw [addCheck_dir env l hl p p' ds]

/-- Of the configuration, rules look at three settings only. -/
theorem check_config {env : Env} {l : Linter} (hl : l ∈ allLinters env) {c c' : Settings.Config}
    (h1 : c'.lint.fileHeader = c.lint.fileHeader) (h2 : c'.lint.javaPackagePrefix = c.lint.javaPackagePrefix)
    (h3 : c'.lint.allowSuppression = c.lint.allowSuppression) (dirPath : Str) {ds : List FileDescriptor}
    (hd : ∀ d ∈ ds, d.config = c) : l.check dirPath (ds.map (·.at c')) = l.check dirPath ds := by
  let m : Change := ⟨fun _ => c', true, true, true⟩
  have hm : m.apply c = c' := by
    unfold Change.apply
    show ({ c' with lint := { c'.lint with
      fileHeader := c.lint.fileHeader, javaPackagePrefix := c.lint.javaPackagePrefix,
      allowSuppression := c.lint.allowSuppression } } : Settings.Config) = c'
    rw [← h1, ← h2, ← h3]
  rw [← blind_all env l hl m ⟨fun _ => rfl, fun _ => rfl, fun _ => rfl⟩ dirPath ds]
  congr 1
  refine List.map_congr_left fun d hdm => ?_
  unfold FileDescriptor.at FileDescriptor.changed
  rw [hd d hdm, hm]


variable {r r' : List Str}

theorem getLinters_moved {env : Env} {c c' : Settings.Config} (hc : MovedConfig r r' c c') :
    getLinters env c'.lint = getLinters env c.lint := by
  have hk : GoMap.keys c'.lint.ignoreIDToFilePaths = GoMap.keys c.lint.ignoreIDToFilePaths := by
    have : ∀ {a b : List (Str × List Str)}, Pointwise (fun a b => b.1 = a.1 ∧ Pointwise (MovedPath r r') a.2 b.2) a b →
        b.map Prod.fst = a.map Prod.fst := by
      intro a b h
      induction h with
      | nil => rfl
      | cons h1 _ ih => rw [List.map_cons, List.map_cons, ih, h1.1]
    exact this hc.ignores
  unfold getLinters
  rw [hk, hc.lint]
  rfl

theorem descriptorsOf_moved {host host' : Host} (hp : ParsesMoved r r' host host') {ps ps' : File.ProtoSet}
    {fs fs' : List File.ProtoFile} (h : Pointwise (MovedFile r r') fs fs') :
    SameResult (fun ds ds' => ds' = ds.map (·.at ps'.config)) (descriptorsOf host ps false fs)
      (descriptorsOf host' ps' false fs') := by
  induction h with
  | nil => exact rfl
  | cons h1 h2 ih =>
    rename_i f f' fs fs'
    rw [descriptorsOf, descriptorsOf]
    have e : SameResult (fun d d' => d' = FileDescriptor.at ps'.config d) (descriptorOf host ps false f)
        (descriptorOf host' ps' false f') := by
      have := hp _ _ f.displayPath h1.path
      unfold descriptorOf
      simp only [Bool.false_eq_true, if_false, h1.displayPath]
      cases e1 : host.parse f.path f.displayPath <;> cases e2 : host'.parse f'.path f.displayPath <;>
        rw [e1, e2] at this
      · trivial
      · exact this.elim
      · exact this.elim
      · have := show _ = _ from this
        subst this
        exact rfl
    cases e1 : descriptorOf host ps false f <;> cases e2 : descriptorOf host' ps' false f' <;>
      rw [e1, e2] at e
    · trivial
    · exact e.elim
    · exact e.elim
    · have e := show _ = _ from e
      dsimp only
      cases e3 : descriptorsOf host ps false fs <;> cases e4 : descriptorsOf host' ps' false fs' <;>
        rw [e3, e4] at ih
      · trivial
      · exact ih.elim
      · exact ih.elim
      · have ih := show _ = _ from ih
        show _ :: _ = List.map _ (_ :: _)
        rw [e, ih, List.map_cons]

theorem kept_moved (hr : Components r) (hr' : Components r') {host host' : Host} {c c' : Settings.Config}
    (hc : MovedConfig r r' c c') {name p p' : Str} (hl : LiesAt host name p) (hl' : LiesAt host' name p')
    (hp : MovedPath r r' p p') (id : Str) :
    kept host' c'.dirPath c'.lint.ignoreIDToFilePaths id name = kept host c.dirPath c.lint.ignoreIDToFilePaths id name := by
  have hx : ∀ {es es' : List Str}, Pointwise (MovedPath r r') es es' →
      (ExcludedBy p c.dirPath es ↔ ExcludedBy p' c'.dirPath es') := by
    intro es es' he
    constructor
    · rintro ⟨e, h1, h2, h3⟩
      obtain ⟨e', h4, h5⟩ := Settings.pointwise_mem_left he e h1
      exact ⟨e', h4, (Proof.Moved.within_iff hr hr' hp h5).1 h2, (Proof.Moved.below_iff hr hr' h5 hc.dirPath).1 h3⟩
    · rintro ⟨e', h1, h2, h3⟩
      obtain ⟨e, h4, h5⟩ := Settings.pointwise_mem_right he e' h1
      exact ⟨e, h4, (Proof.Moved.within_iff hr hr' hp h5).2 h2, (Proof.Moved.below_iff hr hr' h5 hc.dirPath).2 h3⟩
  have : IgnoredFor host' c'.dirPath c'.lint.ignoreIDToFilePaths id name ↔
      IgnoredFor host c.dirPath c.lint.ignoreIDToFilePaths id name := by
    rcases Proof.Moved.get_rel (K := fun a b => b = a) (fun _ _ _ _ h1 h2 => by rw [h1, h2]) hc.ignores
      (k := id) (k' := id) rfl with ⟨g1, g2⟩ | ⟨v, v', g1, g2, hv⟩
    · constructor
      · rintro ⟨paths, path, h1, _⟩
        rw [g2] at h1; cases h1
      · rintro ⟨paths, path, h1, _⟩
        rw [g1] at h1; cases h1
    · constructor
      · rintro ⟨paths, path, h1, h2, h3⟩
        rw [g2] at h1; cases h1
        rw [liesAt_unique h2 hl'] at h3
        exact ⟨v, p, g1, hl, (hx hv).2 h3⟩
      · rintro ⟨paths, path, h1, h2, h3⟩
        rw [g1] at h1; cases h1
        rw [liesAt_unique h2 hl] at h3
        exact ⟨v', p', g2, hl', (hx hv).1 h3⟩
  unfold kept
  exact decide_eq_decide.2 (not_congr this)

/-- What the rules say of the files of a directory. -/
theorem says_moved (hr : Components r) (hr' : Components r') {env : Env} {host host' : Host}
    (hp : ParsesMoved r r' host host') {ps ps' : File.ProtoSet} (hm : MovedSet r r' ps ps')
    {d d' : Str × List File.ProtoFile} (hd : MovedDir r r' d d')
    (hl : ∀ f ∈ d.2, LiesAt host f.displayPath f.path) (hl' : ∀ f ∈ d'.2, LiesAt host' f.displayPath f.path)
    {ls : List Linter} (hls : ∀ l ∈ ls, l ∈ allLinters env)
    (h : descriptorsOf host ps false d.2 = .ok (parsedOf host ps false d.2)) :
    descriptorsOf host' ps' false d'.2 = .ok (parsedOf host' ps' false d'.2) ∧
      (GoesOf host ps false ls d → GoesOf host' ps' false ls d') ∧
      saysOf host' ps' false ls d' = saysOf host ps false ls d := by
  have hdesc := descriptorsOf_moved hp (ps := ps) (ps' := ps') hd.files
  rw [h] at hdesc
  cases e : descriptorsOf host' ps' false d'.2 with
  | error => rw [e] at hdesc; exact hdesc.elim
  | ok ds' =>
    rw [e] at hdesc
    have hds : ds' = (parsedOf host ps false d.2).map (·.at ps'.config) := hdesc
    have hpd : parsedOf host' ps' false d'.2 = ds' := by unfold parsedOf; rw [e]
    have hcfg : ∀ x ∈ parsedOf host ps false d.2, x.config = ps.config := by
      intro x hx
      obtain ⟨g, _, hg⟩ := descriptorsOf_mem h x hx
      unfold descriptorOf at hg
      dsimp only at hg
      split at hg
      · cases hg
      · cases hg; rfl
    have key : ∀ l ∈ ls, l.check d'.1 ((parsedOf host' ps' false d'.2).filter fun x =>
        kept host' ps'.config.dirPath ps'.config.lint.ignoreIDToFilePaths l.id x.filename) =
        l.check d.1 ((parsedOf host ps false d.2).filter fun x =>
          kept host ps.config.dirPath ps.config.lint.ignoreIDToFilePaths l.id x.filename) := by
      intro l hlm
      have hf : (parsedOf host' ps' false d'.2).filter (fun x =>
          kept host' ps'.config.dirPath ps'.config.lint.ignoreIDToFilePaths l.id x.filename) =
          ((parsedOf host ps false d.2).filter fun x =>
            kept host ps.config.dirPath ps.config.lint.ignoreIDToFilePaths l.id x.filename).map (·.at ps'.config) := by
        rw [hpd, hds, List.filter_map]
        congr 1
        refine List.filter_congr fun x hx => ?_
        have hn : x.filename ∈ d.2.map (nameIn false) := by
          rw [← descriptorsOf_names h]
          exact List.mem_map_of_mem hx
        obtain ⟨f, hf, e1⟩ := List.mem_map.1 hn
        obtain ⟨f', hf', hff⟩ := Settings.pointwise_mem_left hd.files f hf
        have e2 : f.displayPath = x.filename := e1
        have h1 := hl f hf
        have h2 := hl' f' hf'
        rw [hff.displayPath] at h2
        rw [e2] at h1 h2
        exact kept_moved hr hr' hm.config h1 h2 hff.path l.id
      rw [hf, check_dir (hls l hlm) d'.1 d.1]
      refine check_config (hls l hlm) ?_ ?_ ?_ _ fun x hx => hcfg x (List.mem_filter.1 hx).1
      · rw [hm.config.lint]
      · rw [hm.config.lint]
      · rw [hm.config.lint]
    refine ⟨by rw [hpd], fun hg l hlm => ?_, ?_⟩
    · rw [key l hlm]; exact hg l hlm
    · unfold saysOf
      exact flatMap_congr' fun l hlm => by rw [key l hlm]

theorem pw_filter {α β : Type} {R : α → β → Prop} {p : α → Bool} {q : β → Bool} {as : List α} {bs : List β}
    (h : Pointwise R as bs) (hpq : ∀ a b, R a b → q b = p a) : Pointwise R (as.filter p) (bs.filter q) := by
  induction h with
  | nil => exact .nil
  | cons h1 h2 ih =>
    rename_i a b as bs
    rw [List.filter_cons, List.filter_cons, hpq a b h1]
    split
    · exact .cons h1 ih
    · exact ih

/-- A run in a moved tree. -/
theorem run_moved (hr : Components r) (hr' : Components r') {env : Env} {host host' : Host}
    (hp : ParsesMoved r r' host host') {ps ps' : File.ProtoSet} (hm : MovedSet r r' ps ps')
    (hs : Sound host ps false) (hs' : Sound host' ps' false)
    (hl : ∀ f ∈ allFiles ps, LiesAt host f.displayPath f.path)
    (hl' : ∀ f ∈ allFiles ps', LiesAt host' f.displayPath f.path) {fs : List Text.Failure}
    (h : run env host ps false = some (.ok fs)) : run env host' ps' false = some (.ok fs) := by
  obtain ⟨ls, h1, h2, rfl⟩ := (run_dirs_iff hs).1 h
  obtain ⟨m, hpw, hperm⟩ := hm.dirs
  have hls : ∀ l ∈ ls, l ∈ allLinters env := fun l hlm => (linters_all h1 l hlm).1
  have key : ∀ d ∈ ps.dirPathToFiles, ∀ d' ∈ ps'.dirPathToFiles, MovedDir r r' d d' →
      descriptorsOf host ps false d.2 = .ok (parsedOf host ps false d.2) →
      descriptorsOf host' ps' false d'.2 = .ok (parsedOf host' ps' false d'.2) ∧
      (GoesOf host ps false ls d → GoesOf host' ps' false ls d') ∧
      saysOf host' ps' false ls d' = saysOf host ps false ls d := fun d hd d' hd' hdd =>
    says_moved hr hr' hp hm hdd (fun f hf => hl f (List.mem_flatMap.2 ⟨d, hd, hf⟩))
      (fun f hf => hl' f (List.mem_flatMap.2 ⟨d', hd', hf⟩)) hls
  have hpref : ∀ a b, MovedDir r r' a b → Str.hasPrefix b.1 ps'.dirPath = Str.hasPrefix a.1 ps.dirPath :=
    fun a b hab => Proof.Moved.hasPrefix_eq hab.path hm.dirPath
  have hpf := pw_filter (p := fun p => Str.hasPrefix p.1 ps.dirPath) (q := fun p => Str.hasPrefix p.1 ps'.dirPath)
    hpw hpref
  have hperm' := hperm.filter fun p => Str.hasPrefix p.1 ps'.dirPath
  refine (run_dirs_iff hs').2 ⟨ls, by rw [getLinters_moved hm.config]; exact h1, fun q hq => ?_, ?_⟩
  · obtain ⟨p, hp1, hp2⟩ := Settings.pointwise_mem_right hpf q (hperm'.mem_iff.1 hq)
    obtain ⟨k1, k2, _⟩ := key p (List.mem_filter.1 hp1).1 q (List.mem_filter.1 hq).1 hp2 (h2 p hp1).1
    exact ⟨k1, k2 (h2 p hp1).2⟩
  · apply Props.C18_canonical
    have : ∀ {l : List (Str × List File.ProtoFile)} {l' : List (Str × List File.ProtoFile)},
        Pointwise (MovedDir r r') l l' → (∀ d ∈ l, d ∈ ps.dirPathToFiles ∧
          descriptorsOf host ps false d.2 = .ok (parsedOf host ps false d.2)) → (∀ d ∈ l', d ∈ ps'.dirPathToFiles) →
        l.flatMap (saysOf host ps false ls) = l'.flatMap (saysOf host' ps' false ls) := by
      intro l l' hh
      induction hh with
      | nil => intros; rfl
      | cons g1 g2 ih =>
        intro i1 i2
        rw [List.flatMap_cons, List.flatMap_cons, ih (fun d hd => i1 d (List.mem_cons_of_mem _ hd))
          (fun d hd => i2 d (List.mem_cons_of_mem _ hd)),
          (key _ (i1 _ List.mem_cons_self).1 _ (i2 _ List.mem_cons_self) g1 (i1 _ List.mem_cons_self).2).2.2]
    rw [this hpf (fun d hd => ⟨(List.mem_filter.1 hd).1, (h2 d hd).1⟩)
      (fun d hd => hperm.mem_iff.2 (List.mem_filter.1 hd).1)]
    exact (hperm'.flatMap_right _).symm

end Verif.Lint
