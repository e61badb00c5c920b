import Verif.Proof.Blind
import Verif.Proof.HTTPCrash
import Verif.Proof.LintRun
import Verif.Proof.LintTable
import Verif.Props.Discovery

/-! # What ignores do to a run -/

namespace Verif.Lint

open Verif Proto Spec Props

theorem flatMap_congr' {α β : Type} {xs : List α} {f g : α → List β}
    (h : ∀ x ∈ xs, f x = g x) : xs.flatMap f = xs.flatMap g := by
  induction xs with
  | nil => rfl
  | cons x xs ih =>
    rw [List.flatMap_cons, List.flatMap_cons, h x List.mem_cons_self,
      ih fun x hx => h x (List.mem_cons_of_mem _ hx)]

/-- The change of the ignores. -/
def ignoresChange (m : GoMap Str (List Str)) : Change :=
  ⟨fun c => { c with lint := { c.lint with ignoreIDToFilePaths := m } }, true, true, true⟩

/-- The file under a configuration with other ignores. -/
def FileDescriptor.withIgnores (m : GoMap Str (List Str)) (d : FileDescriptor) : FileDescriptor :=
  d.changed (ignoresChange m)

theorem check_withIgnores {env : Env} {l : Linter} (hl : l ∈ allLinters env) (m : GoMap Str (List Str))
    (dirPath : Str) (ds : List FileDescriptor) :
    l.check dirPath (ds.map (·.withIgnores m)) = l.check dirPath ds :=
  blind_all env l hl (ignoresChange m) ⟨fun _ => rfl, fun _ => rfl, fun _ => rfl⟩ dirPath ds

/-- A file of a run. -/
structure GoodFile (host : Host) (configDir : Str) (d : FileDescriptor) : Prop where
  parsed : Parsed d
  lies : ∃ path, LiesAt host d.filename path ∧ Below path configDir
  config : d.config.dirPath = configDir

theorem within_of_below {p d : Str} (h : Below p d) : Within p d := by
  obtain ⟨cs, ds, h1, _, h2, h3⟩ := h
  exact ⟨cs, ds, h1, h2, h3⟩

theorem liesAt_unique {host : Host} {n p q : Str} (h : LiesAt host n p) (h' : LiesAt host n q) :
    p = q := by
  unfold LiesAt at h h'
  split at h
  · rename_i hc; rw [if_pos hc] at h'; rw [h, h']
  · rename_i hc; rw [if_neg hc] at h'; rw [h] at h'; cases h'; rfl

theorem liesAt_eq {host : Host} {n p : Str} (h : LiesAt host n p) :
    (if !Path.isAbs n then host.abs n else .ok n) = .ok p := by
  unfold LiesAt at h
  cases hc : Path.isAbs n with
  | true => rw [hc, if_pos rfl] at h; rw [h]; rfl
  | false => rw [hc, if_neg Bool.false_ne_true] at h; exact h

open Classical in
/-- The file stays in the check of the rule. -/
noncomputable def kept (host : Host) (configDir : Str) (ignores : GoMap Str (List Str))
    (rule : Str) (filename : Str) : Bool :=
  decide (¬ IgnoredFor host configDir ignores rule filename)

theorem shouldIgnore_eq {host : Host} {configDir : Str} {d : FileDescriptor}
    (h : GoodFile host configDir d) (l : Linter) (ign : GoMap Str (List Str)) :
    shouldIgnore host l d ign = some (.ok !(kept host configDir ign l.id d.filename)) := by
  obtain ⟨path, hl, hw⟩ := h.lies
  unfold shouldIgnore
  rw [liesAt_eq hl]
  dsimp only
  cases hg : GoMap.get? ign l.id with
  | none =>
    have : ¬ IgnoredFor host configDir ign l.id d.filename := by
      rintro ⟨ps, q, h1, _⟩; rw [hg] at h1; cases h1
    simp [kept, this]
  | some paths =>
    dsimp only
    obtain ⟨b, hb, hiff⟩ := C20_components path configDir (within_of_below hw) paths
    rw [h.config, hb]
    dsimp only
    have : b = true ↔ IgnoredFor host configDir ign l.id d.filename := by
      rw [hiff]
      constructor
      · exact fun he => ⟨paths, path, hg, hl, he⟩
      · rintro ⟨ps, q, h1, h2, h3⟩
        rw [hg] at h1; cases h1
        rw [liesAt_unique hl h2]
        exact h3
    cases b with
    | true => simp [kept, this.1 rfl]
    | false =>
      have : ¬ IgnoredFor host configDir ign l.id d.filename := fun h => by
        have := this.2 h; cases this
      simp [kept, this]

theorem filterIgnores_eq {host : Host} {configDir : Str} {ds : List FileDescriptor}
    (h : ∀ d ∈ ds, GoodFile host configDir d) (l : Linter) (ign : GoMap Str (List Str)) :
    filterIgnores host l ign ds =
      some (.ok (ds.filter fun d => kept host configDir ign l.id d.filename)) := by
  induction ds with
  | nil => rfl
  | cons d ds ih =>
    unfold filterIgnores
    rw [shouldIgnore_eq (h d List.mem_cons_self), ih fun d hd => h d (List.mem_cons_of_mem _ hd)]
    dsimp only
    rw [List.filter_cons]
    cases kept host configDir ign l.id d.filename <;> rfl

theorem checkOne_eq {host : Host} {configDir : Str} {ds : List FileDescriptor}
    (h : ∀ d ∈ ds, GoodFile host configDir d) (l : Linter) (dirPath : Str)
    (ign : GoMap Str (List Str)) :
    checkOne host l dirPath ds ign =
      l.check dirPath (ds.filter fun d => kept host configDir ign l.id d.filename) := by
  unfold checkOne
  rw [filterIgnores_eq h]

/-! ## The files of a run -/

theorem descriptorsOf_ignoring (host : Host) (ps : File.ProtoSet) (abs : Bool)
    (m : GoMap Str (List Str)) (fs : List File.ProtoFile) :
    descriptorsOf host (ignoring m ps) abs fs =
      (descriptorsOf host ps abs fs).map (·.map (·.withIgnores m)) := by
  induction fs with
  | nil => rfl
  | cons f fs ih =>
    unfold descriptorsOf
    have : descriptorOf host (ignoring m ps) abs f =
        (descriptorOf host ps abs f).map (·.withIgnores m) := by
      unfold descriptorOf
      dsimp only
      cases host.parse f.path (if abs then f.path else f.displayPath) <;> rfl
    rw [this, ih]
    cases descriptorOf host ps abs f with
    | error e => rfl
    | ok d =>
      show _ = Except.map _ (match descriptorsOf host ps abs fs with
        | .error e => .error e
        | .ok ds => .ok (d :: ds))
      cases descriptorsOf host ps abs fs <;> rfl

theorem dirResults_ignoring (host : Host) (ps : File.ProtoSet) (abs : Bool)
    (m : GoMap Str (List Str)) :
    dirResults host (ignoring m ps) abs =
      (dirResults host ps abs).map (·.map fun p => (p.1, p.2.map (·.withIgnores m))) := by
  unfold dirResults
  rw [List.map_map]
  refine List.map_congr_left fun p _ => ?_
  show (match descriptorsOf host (ignoring m ps) abs p.2 with
      | .error e => .error e
      | .ok ds => .ok (p.1, ds)) = Except.map _ (match descriptorsOf host ps abs p.2 with
      | .error e => .error e
      | .ok ds => .ok (p.1, ds))
  rw [descriptorsOf_ignoring]
  cases descriptorsOf host ps abs p.2 <;> rfl

theorem descriptorsOf_mem {host : Host} {ps : File.ProtoSet} {abs : Bool}
    {fs : List File.ProtoFile} {ds : List FileDescriptor}
    (h : descriptorsOf host ps abs fs = .ok ds) :
    ∀ d ∈ ds, ∃ f ∈ fs, descriptorOf host ps abs f = .ok d := by
  induction fs generalizing ds with
  | nil => cases h; exact fun _ h => nomatch h
  | cons f fs ih =>
    unfold descriptorsOf at h
    cases hf : descriptorOf host ps abs f with
    | error e => rw [hf] at h; cases h
    | ok d =>
      rw [hf] at h
      dsimp only at h
      cases hr : descriptorsOf host ps abs fs with
      | error e => rw [hr] at h; cases h
      | ok ds' =>
        rw [hr] at h
        cases h
        refine List.forall_mem_cons.2 ⟨⟨f, List.mem_cons_self, hf⟩, fun d hd => ?_⟩
        obtain ⟨f', h1, h2⟩ := ih hr d hd
        exact ⟨f', List.mem_cons_of_mem _ h1, h2⟩

theorem dirResults_good {host : Host} {ps : File.ProtoSet} {abs : Bool} (hs : Sound host ps abs)
    {dirs : List (Str × List FileDescriptor)} (h : dirResults host ps abs = dirs.map .ok) :
    ∀ p ∈ dirs, ∀ d ∈ p.2, GoodFile host ps.config.dirPath d := by
  intro p hp d hd
  have : Except.ok p ∈ dirResults host ps abs := by
    rw [h]; exact List.mem_map_of_mem hp
  obtain ⟨q, hq, he⟩ := List.mem_map.1 this
  cases hr : descriptorsOf host ps abs q.2 with
  | error e => rw [hr] at he; cases he
  | ok ds =>
    rw [hr] at he
    cases he
    obtain ⟨f, hf, hdesc⟩ := descriptorsOf_mem hr d hd
    obtain ⟨h1, h2⟩ := hs.files q (List.mem_filter.1 hq).1 f hf
    unfold descriptorOf at hdesc
    dsimp only at hdesc
    cases hparse : host.parse f.path (if abs then f.path else f.displayPath) with
    | error e => rw [hparse] at hdesc; cases hdesc
    | ok x =>
      obtain ⟨els, data⟩ := x
      rw [hparse] at hdesc
      cases hdesc
      obtain ⟨h3, h4⟩ := hs.parse _ _ _ _ hparse ps.config
      exact ⟨⟨h3, h4, h1⟩, h2, rfl⟩

theorem Sound.ignoring {host : Host} {ps : File.ProtoSet} {abs : Bool} (hs : Sound host ps abs)
    (m : GoMap Str (List Str)) : Sound host (Spec.ignoring m ps) abs := ⟨hs.parse, hs.files⟩

theorem filter_map_withIgnores (m : GoMap Str (List Str)) (k : Str → Bool)
    (ds : List FileDescriptor) : (ds.map (·.withIgnores m)).filter (fun d => k d.filename) =
      (ds.filter fun d => k d.filename).map (·.withIgnores m) := by
  rw [List.filter_map]
  rfl

/-- What a run under given ignores yields. -/
theorem run_ignoring_iff {env : Env} {host : Host} {ps : File.ProtoSet} {abs : Bool}
    (hs : Sound host ps abs) {m : GoMap Str (List Str)} {fs : List Text.Failure} :
    run env host (ignoring m ps) abs = some (.ok fs) ↔
      ∃ ls, getLinters env (ignoring m ps).config.lint = .ok ls ∧
        ∃ dirs : List (Str × List FileDescriptor), dirResults host ps abs = dirs.map .ok ∧
          (∀ p ∈ dirs, ∀ l ∈ ls, IsOk (l.check p.1
            (p.2.filter fun d => kept host ps.config.dirPath m l.id d.filename))) ∧
          fs = Text.sortFailures (dirs.flatMap fun p => ls.flatMap fun l =>
            okOf (l.check p.1
              (p.2.filter fun d => kept host ps.config.dirPath m l.id d.filename))) := by
  rw [run_ok_iff]
  refine exists_congr fun ls => and_congr_right fun hl => ?_
  have hall : ∀ l ∈ ls, l ∈ allLinters env := by
    rcases getLinters_spec env (ignoring m ps).config.lint with ⟨_, ls', h1, h2, _⟩ | ⟨_, e, h1⟩
    · rw [hl] at h1; cases h1; exact h2
    · rw [hl] at h1; cases h1
  rw [dirResults_ignoring]
  have key : ∀ dirs : List (Str × List FileDescriptor), dirResults host ps abs = dirs.map .ok →
      ∀ p ∈ dirs, ∀ l ∈ ls, checkOne host l p.1 (p.2.map (·.withIgnores m)) m =
        l.check p.1 (p.2.filter fun d => kept host ps.config.dirPath m l.id d.filename) := by
    intro dirs hd p hp l hl
    have hgood : ∀ d ∈ p.2.map (·.withIgnores m), GoodFile host ps.config.dirPath d := by
      intro d hd'
      obtain ⟨d0, hd0, rfl⟩ := List.mem_map.1 hd'
      have := dirResults_good hs hd p hp d0 hd0
      exact ⟨⟨this.parsed.grammar, this.parsed.placed, this.parsed.proto⟩, this.lies, this.config⟩
    rw [checkOne_eq hgood, filter_map_withIgnores, check_withIgnores (hall l hl)]
  constructor
  · rintro ⟨dirs', hd', hok, rfl⟩
    have : ∃ dirs : List (Str × List FileDescriptor), dirResults host ps abs = dirs.map .ok ∧
        dirs' = dirs.map fun p => (p.1, p.2.map (·.withIgnores m)) := by
      clear hok hs key
      generalize dirResults host ps abs = rs at hd'
      induction rs generalizing dirs' with
      | nil => cases dirs' with
        | nil => exact ⟨[], rfl, rfl⟩
        | cons _ _ => cases hd'
      | cons r rs ih =>
        cases dirs' with
        | nil => cases hd'
        | cons x dirs' =>
          rw [List.map_cons, List.map_cons, List.cons.injEq] at hd'
          obtain ⟨dirs, h1, h2⟩ := ih dirs' hd'.2
          cases r with
          | error e => cases hd'.1
          | ok p =>
            have := hd'.1
            cases this
            exact ⟨p :: dirs, by rw [List.map_cons, h1], by rw [List.map_cons, h2]⟩
    obtain ⟨dirs, hd, rfl⟩ := this
    refine ⟨dirs, hd, fun p hp l hl => ?_, ?_⟩
    · rw [← key dirs hd p hp l hl]
      exact hok _ (List.mem_map_of_mem hp) l hl
    · rw [List.flatMap_map]
      congr 1
      refine flatMap_congr' fun p hp => flatMap_congr' fun l hl => ?_
      exact congrArg okOf (key dirs hd p hp l hl)
  · rintro ⟨dirs, hd, hok, rfl⟩
    refine ⟨dirs.map fun p => (p.1, p.2.map (·.withIgnores m)), ?_, fun p hp l hl => ?_, ?_⟩
    · rw [hd, List.map_map, List.map_map]; rfl
    · obtain ⟨q, hq, rfl⟩ := List.mem_map.1 hp
      have := hok q hq l hl
      rw [← key dirs hd q hq l hl] at this
      exact this
    · rw [List.flatMap_map]
      congr 1
      refine flatMap_congr' fun p hp => flatMap_congr' fun l hl => ?_
      exact (congrArg okOf (key dirs hd p hp l hl)).symm

/-! ## The rules -/

/-- A rule for single files, seen from outside. -/
def Single (l : Linter) : Prop :=
  ∀ dirPath ds gs, (∀ d ∈ ds, Parsed d) → l.check dirPath ds = some (.ok gs) →
    ∃ g : FileDescriptor → List Text.Failure, gs = ds.flatMap g ∧
      (∀ d ∈ ds, ∀ f ∈ g d, f.filename = d.filename ∧ f.lintID = l.id) ∧
      ∀ p : FileDescriptor → Bool,
        l.check dirPath (ds.filter p) = some (.ok ((ds.filter p).flatMap g))

theorem place_mem {f : Text.Failure} {fs : List Text.Failure} {ps : List Position}
    (h : (fs.map place).Perm ps) (hf : f ∈ fs) : place f ∈ ps :=
  h.mem_iff.1 (List.mem_map_of_mem hf)

theorem FileRule.single' {ok : FileDescriptor → Prop} {l : Linter} (h : FileRule ok l)
    (hok : ∀ dirPath d gs, Parsed d → l.check dirPath [d] = some (.ok gs) → ok d) : Single l := by
  intro dirPath ds gs hp hc
  obtain ⟨g, hg, rfl⟩ := (h.perFile.flatMap dirPath ds gs).1 hc
  refine ⟨g, rfl, fun d hd f hf => ?_, fun p => ?_⟩
  · obtain ⟨places, hr, hin⟩ := h.lands
    have hokd := hok dirPath d _ (hp d hd) (hg d hd)
    obtain ⟨fs, h1, h2, h3⟩ := hr dirPath [d] fun x hx => by rw [List.mem_singleton.1 hx]; exact hokd
    rw [hg d hd] at h1
    cases h1
    refine ⟨?_, h3 f hf⟩
    have := place_mem h2 hf
    rw [List.flatMap_cons, List.flatMap_nil, List.append_nil] at this
    exact hin d hokd _ this
  · exact (h.perFile.flatMap dirPath _ _).2 ⟨g, fun d hd => hg d (List.mem_filter.1 hd).1, rfl⟩

theorem rule_cases (env : Env) : ∀ l ∈ allLinters env,
    (l.id ∉ directoryRules ∧ Single l) ∨ DirRule l := by
  intro l hl
  cases rule_all env l hl with
  | file h _ => exact .inl ⟨h.single, h.single' fun _ _ _ hp _ => hp⟩
  | dir h => exact .inr h
  | http h he =>
    refine .inl ⟨h.single, h.single' fun dirPath d gs hp hc => ⟨hp, ?_⟩⟩
    subst he
    refine Classical.byContradiction fun hn => ?_
    have := (http_crash (dirPath := dirPath) (ds := [d])
      fun x hx => by rw [List.mem_singleton.1 hx]; exact hp.grammar).2
      ⟨d, List.mem_singleton.2 rfl, hn⟩
    rw [this] at hc; cases hc

/-- What a directory rule reports is under its name and in the files it looked at. -/
theorem DirRule.lands {l : Linter} (h : DirRule l) (dirPath : Str) (ds : List FileDescriptor)
    (hp : ∀ d ∈ ds, Parsed d) : ∃ fs, l.check dirPath ds = some (.ok fs) ∧
      ∀ f ∈ fs, f.lintID = l.id ∧ ∃ d ∈ ds, f.filename = d.filename := by
  obtain ⟨many, value, hr, hin⟩ := h.reports
  obtain ⟨fs, h1, h2, h3⟩ := hr dirPath ds
  refine ⟨fs, h1, fun f hf => ⟨h3 f hf, ?_⟩⟩
  have := place_mem h2 hf
  rcases List.mem_append.1 this with hm | hm
  · obtain ⟨d, hd, hm⟩ := List.mem_flatMap.1 hm
    exact ⟨d, hd, hin d (hp d hd) _ hm⟩
  · split at hm
    · obtain ⟨d, hd, he⟩ := List.mem_map.1 hm
      exact ⟨d, hd, (congrArg Position.filename he).symm⟩
    · cases hm

theorem getLinters_ignoring {env : Env} {ps : File.ProtoSet} {m m' : GoMap Str (List Str)}
    (hk : ∀ p ∈ m', DocRule p.1) {ls : List Linter}
    (h : getLinters env (ignoring m ps).config.lint = .ok ls) :
    getLinters env (ignoring m' ps).config.lint = .ok ls := by
  unfold getLinters at h ⊢
  have hg : groupLinters env (ignoring m' ps).config.lint = groupLinters env (ignoring m ps).config.lint :=
    rfl
  rw [hg]
  cases hgl : groupLinters env (ignoring m ps).config.lint with
  | error e => rw [hgl] at h; cases h
  | ok gl =>
  rw [hgl] at h
  dsimp only at h ⊢
  have h1' : (ignoring m' ps).config.lint.includeIDs = (ignoring m ps).config.lint.includeIDs := rfl
  have h2' : (ignoring m' ps).config.lint.excludeIDs = (ignoring m ps).config.lint.excludeIDs := rfl
  rw [h1', h2']
  cases h1 : (ignoring m ps).config.lint.includeIDs.findSome? (checkLintID env) with
  | some e => rw [h1] at h; cases h
  | none =>
  rw [h1] at h
  dsimp only at h ⊢
  cases h2 : (ignoring m ps).config.lint.excludeIDs.findSome? (checkLintID env) with
  | some e => rw [h2] at h; cases h
  | none =>
  rw [h2] at h
  dsimp only at h ⊢
  have h3 : (env.order.ord [s%"GetLinters", s%"ignores"]
      (GoMap.keys (ignoring m' ps).config.lint.ignoreIDToFilePaths)).findSome? (checkLintID env) = none := by
    rw [findSome_none]
    intro id hid
    rw [(env.order.perm _ _).mem_iff] at hid
    obtain ⟨p, hp, rfl⟩ := List.mem_map.1 hid
    exact hk p hp
  rw [h3]
  cases h4 : (env.order.ord [s%"GetLinters", s%"ignores"]
      (GoMap.keys (ignoring m ps).config.lint.ignoreIDToFilePaths)).findSome? (checkLintID env) with
  | some e => rw [h4] at h; cases h
  | none =>
    rw [h4] at h
    exact h

theorem kept_nil (host : Host) (configDir rule filename : Str) :
    kept host configDir [] rule filename = true := by
  have : ¬ IgnoredFor host configDir [] rule filename := by rintro ⟨_, _, h, _⟩; cases h
  simp [kept, this]

theorem filter_kept_nil (host : Host) (configDir rule : Str) (ds : List FileDescriptor) :
    (ds.filter fun d => kept host configDir [] rule d.filename) = ds :=
  List.filter_eq_self.2 fun _ _ => kept_nil ..

theorem count_flatMap_congr {α β : Type} [DecidableEq β] {xs : List α} {f g : α → List β} {b : β}
    (h : ∀ x ∈ xs, (f x).count b = (g x).count b) :
    (xs.flatMap f).count b = (xs.flatMap g).count b := by
  induction xs with
  | nil => rfl
  | cons x xs ih =>
    rw [List.flatMap_cons, List.flatMap_cons, List.count_append, List.count_append,
      h x List.mem_cons_self, ih fun x hx => h x (List.mem_cons_of_mem _ hx)]

theorem count_filter_flatMap {α β : Type} [DecidableEq β] {xs : List α} {g : α → List β} {b : β}
    {p : α → Bool} (h : ∀ x ∈ xs, p x = false → b ∉ g x) :
    ((xs.filter p).flatMap g).count b = (xs.flatMap g).count b := by
  induction xs with
  | nil => rfl
  | cons x xs ih =>
    have ih' := ih fun x hx => h x (List.mem_cons_of_mem _ hx)
    rw [List.filter_cons, List.flatMap_cons, List.count_append]
    cases hp : p x with
    | true => rw [if_pos rfl, List.flatMap_cons, List.count_append, ih']
    | false =>
      rw [if_neg Bool.false_ne_true, ih', List.count_eq_zero.2 (h x List.mem_cons_self hp), Nat.zero_add]

/-- What ignores do. -/
theorem ignoring_spec {env : Env} {host : Host} {ps : File.ProtoSet} {abs : Bool}
    (hs : Sound host ps abs) {m : GoMap Str (List Str)} (hk : ∀ p ∈ m, DocRule p.1)
    {gs : List Text.Failure} (hg : run env host (ignoring [] ps) abs = some (.ok gs)) :
    ∃ fs, run env host (ignoring m ps) abs = some (.ok fs) ∧
      (∀ f ∈ fs, ¬ Ignored host ps.config.dirPath m f) ∧
      ∀ f, f.lintID ∉ directoryRules → ¬ Ignored host ps.config.dirPath m f →
        fs.count f = gs.count f := by
  obtain ⟨ls, hl, dirs, hd, hok, rfl⟩ := (run_ignoring_iff hs).1 hg
  have hall : ∀ l ∈ ls, l ∈ allLinters env := by
    rcases getLinters_spec env (ignoring [] ps).config.lint with ⟨_, ls', h1, h2, _⟩ | ⟨_, e, h1⟩
    · rw [hl] at h1; cases h1; exact h2
    · rw [hl] at h1; cases h1
  have hgood := dirResults_good hs hd
  have hfilter : ∀ (p : Str × List FileDescriptor), p ∈ dirs → ∀ (q : FileDescriptor → Bool),
      ∀ d ∈ p.2.filter q, Parsed d := fun p hp q d hd =>
    (hgood p hp d (List.mem_filter.1 hd).1).parsed
  simp only [filter_kept_nil] at hok
  have hok' : ∀ p ∈ dirs, ∀ l ∈ ls, IsOk (l.check p.1
      (p.2.filter fun d => kept host ps.config.dirPath m l.id d.filename)) := by
    intro p hp l hlm
    obtain ⟨gs, hgs⟩ := hok p hp l hlm
    rcases rule_cases env l (hall l hlm) with ⟨_, h⟩ | h
    · obtain ⟨g, _, _, h3⟩ := h p.1 p.2 gs (fun d hd => (hgood p hp d hd).parsed) hgs
      exact ⟨_, h3 _⟩
    · obtain ⟨fs, h1, _⟩ := h.lands p.1 _ (hfilter p hp _)
      exact ⟨fs, h1⟩
  refine ⟨_, (run_ignoring_iff hs).2 ⟨ls, getLinters_ignoring hk hl, dirs, hd, hok', rfl⟩, ?_, ?_⟩
  · intro f hf hign
    rw [(C18_sorted _).1.mem_iff] at hf
    obtain ⟨p, hp, hf⟩ := List.mem_flatMap.1 hf
    obtain ⟨l, hlm, hf⟩ := List.mem_flatMap.1 hf
    have hland : f.lintID = l.id ∧
        ∃ d ∈ p.2.filter fun d => kept host ps.config.dirPath m l.id d.filename,
          f.filename = d.filename := by
      rcases rule_cases env l (hall l hlm) with ⟨_, h⟩ | h
      · obtain ⟨gs, hgs⟩ := hok p hp l hlm
        obtain ⟨g, _, h2, h3⟩ := h p.1 p.2 gs (fun d hd => (hgood p hp d hd).parsed) hgs
        rw [h3] at hf
        obtain ⟨d, hd, hf⟩ := List.mem_flatMap.1 hf
        have := h2 d (List.mem_filter.1 hd).1 f hf
        exact ⟨this.2, d, hd, this.1⟩
      · obtain ⟨fs, h1, h2⟩ := h.lands p.1 _ (hfilter p hp _)
        rw [h1] at hf
        exact h2 f hf
    obtain ⟨hid, d, hd, hname⟩ := hland
    have := (List.mem_filter.1 hd).2
    rw [← hid, ← hname] at this
    simp only [kept, decide_eq_true_eq] at this
    exact this hign
  · intro f hdir hnot
    rw [(C18_sorted _).1.count_eq, (C18_sorted _).1.count_eq]
    refine count_flatMap_congr fun p hp => count_flatMap_congr fun l hlm => ?_
    rw [filter_kept_nil]
    obtain ⟨gs, hgs⟩ := hok p hp l hlm
    rcases rule_cases env l (hall l hlm) with ⟨_, h⟩ | h
    · obtain ⟨g, h1, h2, h3⟩ := h p.1 p.2 gs (fun d hd => (hgood p hp d hd).parsed) hgs
      rw [h3, hgs, h1]
      refine count_filter_flatMap fun d hd hkd hf => ?_
      obtain ⟨e1, e2⟩ := h2 d hd f hf
      have : kept host ps.config.dirPath m l.id d.filename = true := by
        rw [← e1, ← e2]
        simp only [kept, decide_eq_true_eq]
        exact hnot
      rw [this] at hkd; cases hkd
    · obtain ⟨fs, h1, h2⟩ := h.lands p.1 p.2 fun d hd => (hgood p hp d hd).parsed
      obtain ⟨fs', h1', h2'⟩ := h.lands p.1 _ (hfilter p hp
        fun d => kept host ps.config.dirPath m l.id d.filename)
      rw [h1, h1']
      have hz : f.lintID ≠ l.id := fun he => hdir (he ▸ h.directory)
      show fs'.count f = fs.count f
      rw [List.count_eq_zero.2 fun hf => hz (h2' f hf).1, List.count_eq_zero.2 fun hf => hz (h2 f hf).1]

end Verif.Lint
