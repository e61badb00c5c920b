import Verif.Proof.LintIgnores

/-! # Which runs succeed, and what ignoring files does to a rule -/

namespace Verif.Lint

open Verif Proto Spec Props

theorem nameIn_eq (abs : Bool) (f : File.ProtoFile) :
    (if abs then f.path else f.displayPath) = nameIn abs f := rfl

theorem descriptorsOf_filter {host : Host} {ps ps' : File.ProtoSet} {abs : Bool} (k : Str → Bool)
    (hc : ps'.config = ps.config) {fs : List File.ProtoFile} {ds : List FileDescriptor}
    (h : descriptorsOf host ps abs fs = .ok ds) :
    descriptorsOf host ps' abs (fs.filter fun f => k (nameIn abs f)) =
      .ok (ds.filter fun d => k d.filename) := by
  induction fs generalizing ds with
  | nil => cases h; rfl
  | cons f fs ih =>
    unfold descriptorsOf at h
    cases hf : descriptorOf host ps abs f with
    | error e => rw [hf] at h; cases h
    | ok d =>
      rw [hf] at h
      dsimp only at h
      cases hr : descriptorsOf host ps abs fs with
      | error e => rw [hr] at h; cases h
      | ok ds' =>
        rw [hr] at h
        cases h
        have hname : d.filename = nameIn abs f := by
          unfold descriptorOf at hf
          dsimp only at hf
          cases hparse : host.parse f.path (if abs then f.path else f.displayPath) with
          | error e => rw [hparse] at hf; cases hf
          | ok x => rw [hparse] at hf; cases hf; rfl
        have hd' : descriptorOf host ps' abs f = .ok d := by
          rw [← hf]
          unfold descriptorOf
          rw [hc]
        rw [List.filter_cons, List.filter_cons, hname]
        cases k (nameIn abs f) with
        | false => exact ih hr
        | true =>
          rw [if_pos rfl, if_pos rfl]
          unfold descriptorsOf
          rw [hd', ih hr]

theorem dirResults_without {host : Host} {ps : File.ProtoSet} {abs : Bool}
    (m : GoMap Str (List Str)) (rule : Str) {dirs : List (Str × List FileDescriptor)}
    (h : dirResults host ps abs = dirs.map .ok) :
    dirResults host (without host m rule abs ps) abs =
      (dirs.map fun p => (p.1, p.2.filter fun d => kept host ps.config.dirPath m rule d.filename)).map
        .ok := by
  have hw : without host m rule abs ps = { ps with dirPathToFiles := ps.dirPathToFiles.map fun p =>
      (p.1, p.2.filter fun f => kept host ps.config.dirPath m rule (nameIn abs f)) } := rfl
  have hconf : (without host m rule abs ps).config = ps.config := rfl
  generalize hps : without host m rule abs ps = ps' at hw hconf ⊢
  unfold dirResults at *
  have hdp : ps'.dirPath = ps.dirPath := by rw [hw]
  have hdf : ps'.dirPathToFiles = ps.dirPathToFiles.map fun p =>
      (p.1, p.2.filter fun f => kept host ps.config.dirPath m rule (nameIn abs f)) := by rw [hw]
  clear hw hps
  rw [hdp, hdf, List.filter_map, List.map_map]
  have hfil : ((fun p : Str × List File.ProtoFile => Str.hasPrefix p.1 ps.dirPath) ∘
      fun p : Str × List File.ProtoFile => (p.1, p.2.filter fun f =>
        kept host ps.config.dirPath m rule (nameIn abs f))) =
      fun p => Str.hasPrefix p.1 ps.dirPath := rfl
  rw [hfil]
  generalize ps.dirPathToFiles.filter (fun p => Str.hasPrefix p.1 ps.dirPath) = xs at h ⊢
  induction xs generalizing dirs with
  | nil =>
    cases dirs with
    | nil => rfl
    | cons _ _ => cases h
  | cons x xs ih =>
    cases dirs with
    | nil => cases h
    | cons d dirs =>
      rw [List.map_cons, List.map_cons, List.cons.injEq] at h
      obtain ⟨h1, h2⟩ := h
      rw [List.map_cons, List.map_cons, List.map_cons, ih h2]
      congr 1
      cases hr : descriptorsOf host ps abs x.2 with
      | error e => rw [hr] at h1; cases h1
      | ok ds =>
        rw [hr] at h1
        cases h1
        have := descriptorsOf_filter (kept host ps.config.dirPath m rule) hconf hr
        show (match descriptorsOf host ps' abs (x.2.filter fun f => kept host ps.config.dirPath m rule (nameIn abs f)) with
          | .error e => Except.error e
          | .ok ds => Except.ok (x.1, ds)) = _
        rw [this]

theorem sound_without {host : Host} {ps : File.ProtoSet} {abs : Bool} (hs : Sound host ps abs)
    (m : GoMap Str (List Str)) (rule : Str) : Sound host (Spec.without host m rule abs ps) abs := by
  refine ⟨hs.parse, fun p hp f hf => ?_⟩
  obtain ⟨q, hq, rfl⟩ := List.mem_map.1 hp
  exact hs.files q hq f (List.mem_filter.1 hf).1

/-- A rule goes well on a part of the files, and reports only in them. -/
theorem part_lands {env : Env} {host : Host} {configDir : Str} {l : Linter} (hl : l ∈ allLinters env)
    {dirPath : Str} {ds : List FileDescriptor} (hg : ∀ d ∈ ds, GoodFile host configDir d)
    (hok : IsOk (l.check dirPath ds)) (q : FileDescriptor → Bool) :
    ∃ fs, l.check dirPath (ds.filter q) = some (.ok fs) ∧ ∀ f ∈ fs, f.lintID = l.id := by
  obtain ⟨gs, hgs⟩ := hok
  rcases rule_cases env l hl with ⟨_, h⟩ | h
  · obtain ⟨g, _, h2, h3⟩ := h dirPath ds gs (fun d hd => (hg d hd).parsed) hgs
    refine ⟨_, h3 q, fun f hf => ?_⟩
    obtain ⟨d, hd, hf⟩ := List.mem_flatMap.1 hf
    exact (h2 d (List.mem_filter.1 hd).1 f hf).2
  · obtain ⟨fs, h1, h2⟩ := h.lands dirPath (ds.filter q) fun d hd => (hg d (List.mem_filter.1 hd).1).parsed
    exact ⟨fs, h1, fun f hf => (h2 f hf).1⟩

/-- To a rule, ignoring files is the same as not having them. -/
theorem ignoring_without {env : Env} {host : Host} {ps : File.ProtoSet} {abs : Bool}
    (hs : Sound host ps abs) {m : GoMap Str (List Str)} (hk : ∀ p ∈ m, DocRule p.1)
    {gs : List Text.Failure} (hg : run env host (ignoring [] ps) abs = some (.ok gs)) :
    ∃ fs, run env host (ignoring m ps) abs = some (.ok fs) ∧ ∀ rule, ∃ rs,
      run env host (ignoring [] (without host m rule abs ps)) abs = some (.ok rs) ∧
        ∀ f, f.lintID = rule → fs.count f = rs.count f := by
  obtain ⟨fs, hfs, -, -⟩ := ignoring_spec hs hk hg
  refine ⟨fs, hfs, fun rule => ?_⟩
  obtain ⟨ls, hl, dirs, hd, hok, rfl⟩ := (run_ignoring_iff hs).1 hg
  obtain ⟨ls', hl', dirs', hd', hok', rfl⟩ := (run_ignoring_iff hs).1 hfs
  rw [getLinters_ignoring hk hl] at hl'
  cases hl'
  rw [hd] at hd'
  cases map_ok_inj hd'
  simp only [filter_kept_nil] at hok
  have hall : ∀ l ∈ ls, l ∈ allLinters env := by
    rcases getLinters_spec env (ignoring [] ps).config.lint with ⟨_, ls', h1, h2, _⟩ | ⟨_, e, h1⟩
    · rw [hl] at h1; cases h1; exact h2
    · rw [hl] at h1; cases h1
  have hgood := dirResults_good hs hd
  refine ⟨_, (run_ignoring_iff (sound_without hs m rule)).2 ⟨ls, hl, _, dirResults_without m rule hd, ?_, rfl⟩, ?_⟩
  · intro p hp l hlm
    obtain ⟨q, hq, rfl⟩ := List.mem_map.1 hp
    rw [filter_kept_nil]
    obtain ⟨fs, h1, _⟩ := part_lands (hall l hlm) (hgood q hq) (hok q hq l hlm)
      (fun d => kept host ps.config.dirPath m rule d.filename)
    exact ⟨fs, h1⟩
  · rintro f rfl
    rw [(C18_sorted _).1.count_eq, (C18_sorted _).1.count_eq, List.flatMap_map]
    refine count_flatMap_congr fun p hp => count_flatMap_congr fun l hlm => ?_
    dsimp only
    rw [filter_kept_nil]
    by_cases hid : f.lintID = l.id
    · rw [hid]
    · obtain ⟨fs1, h1, h1'⟩ := part_lands (hall l hlm) (hgood p hp) (hok p hp l hlm)
        (fun d => kept host ps.config.dirPath m l.id d.filename)
      obtain ⟨fs2, h2, h2'⟩ := part_lands (hall l hlm) (hgood p hp) (hok p hp l hlm)
        (fun d => kept host ps.config.dirPath m f.lintID d.filename)
      rw [h1, h2]
      show fs1.count f = fs2.count f
      rw [List.count_eq_zero.2 fun hf => hid (h1' f hf), List.count_eq_zero.2 fun hf => hid (h2' f hf)]

/-! ## Which runs succeed -/

theorem descriptorsOf_ok {host : Host} {ps : File.ProtoSet} {abs : Bool} {fs : List File.ProtoFile}
    (h : ∀ f ∈ fs, ∃ d, descriptorOf host ps abs f = .ok d) :
    ∃ ds, descriptorsOf host ps abs fs = .ok ds := by
  induction fs with
  | nil => exact ⟨_, rfl⟩
  | cons f fs ih =>
    obtain ⟨d, hd⟩ := h f List.mem_cons_self
    obtain ⟨ds, hds⟩ := ih fun f hf => h f (List.mem_cons_of_mem _ hf)
    refine ⟨d :: ds, ?_⟩
    unfold descriptorsOf
    rw [hd, hds]

theorem dirResults_ok {host : Host} {ps : File.ProtoSet} {abs : Bool}
    (h : ∀ f ∈ filesOf ps, ∃ x, host.parse f.path (nameIn abs f) = .ok x) :
    ∃ dirs : List (Str × List FileDescriptor), dirResults host ps abs = dirs.map .ok := by
  unfold dirResults
  have h' : ∀ p ∈ ps.dirPathToFiles.filter (fun p => Str.hasPrefix p.1 ps.dirPath), ∀ f ∈ p.2,
      ∃ d, descriptorOf host ps abs f = .ok d := by
    intro p hp f hf
    obtain ⟨x, hx⟩ := h f (List.mem_flatMap.2 ⟨p, hp, hf⟩)
    unfold descriptorOf
    dsimp only
    rw [nameIn_eq, hx]
    exact ⟨_, rfl⟩
  generalize ps.dirPathToFiles.filter (fun p => Str.hasPrefix p.1 ps.dirPath) = xs at h' ⊢
  induction xs with
  | nil => exact ⟨[], rfl⟩
  | cons x xs ih =>
    obtain ⟨dirs, hd⟩ := ih fun p hp => h' p (List.mem_cons_of_mem _ hp)
    obtain ⟨ds, hds⟩ := descriptorsOf_ok (h' x List.mem_cons_self)
    refine ⟨(x.1, ds) :: dirs, ?_⟩
    rw [List.map_cons, hd, hds]
    rfl

/-- A rule goes well on parsed files, unless it is the one about HTTP options and there is one
where the rule does not expect it. -/
theorem check_ok {env : Env} {l : Linter} (hl : l ∈ allLinters env) (dirPath : Str)
    {ds : List FileDescriptor} (hp : ∀ d ∈ ds, Parsed d)
    (hh : l.id = httpRule → ∀ d ∈ ds, NoOuterHTTP d) :
    ∃ fs, l.check dirPath ds = some (.ok fs) ∧
      ∀ f ∈ fs, f.lintID = l.id ∧ ∃ d ∈ ds, f.filename = d.filename := by
  have key : ∀ {ok : FileDescriptor → Prop}, FileRule ok l → (∀ d ∈ ds, ok d) →
      ∃ fs, l.check dirPath ds = some (.ok fs) ∧
        ∀ f ∈ fs, f.lintID = l.id ∧ ∃ d ∈ ds, f.filename = d.filename := by
    intro ok h hok
    obtain ⟨places, hr, hin⟩ := h.lands
    obtain ⟨fs, h1, h2, h3⟩ := hr dirPath ds hok
    refine ⟨fs, h1, fun f hf => ⟨h3 f hf, ?_⟩⟩
    obtain ⟨d, hd, hm⟩ := List.mem_flatMap.1 (place_mem h2 hf)
    exact ⟨d, hd, hin d (hok d hd) _ hm⟩
  cases rule_all env l hl with
  | file h _ => exact key h hp
  | dir h => exact h.lands dirPath ds hp
  | http h he => exact key h fun d hd => ⟨hp d hd, hh (by rw [he]; rfl) d hd⟩

theorem run_total {env : Env} {host : Host} {ps : File.ProtoSet} {abs : Bool}
    (hs : Sound host ps abs) (hk : KnownNames ps.config.lint)
    (hparse : ∀ f ∈ filesOf ps, ∃ elements data, host.parse f.path (nameIn abs f) = .ok (elements, data) ∧
      (AsksRule ps.config.lint httpRule →
        NoOuterHTTP ⟨nameIn abs f, elements, ps.config, data⟩)) :
    ∃ fs, run env host ps abs = some (.ok fs) := by
  obtain ⟨dirs, hd⟩ := dirResults_ok fun f hf => by
    obtain ⟨e, dt, h, _⟩ := hparse f hf
    exact ⟨_, h⟩
  have hgood := dirResults_good hs hd
  rcases getLinters_spec env ps.config.lint with ⟨_, ls, h1, h2, _, h3⟩ | ⟨h, _⟩
  · refine ⟨_, run_ok_iff.2 ⟨ls, h1, dirs, hd, fun p hp l hl => ?_, rfl⟩⟩
    rw [checkOne_eq (hgood p hp)]
    obtain ⟨fs, h, _⟩ := check_ok (h2 l hl) p.1
      (ds := p.2.filter fun d => kept host ps.config.dirPath ps.config.lint.ignoreIDToFilePaths l.id d.filename)
      (fun d hd => (hgood p hp d (List.mem_filter.1 hd).1).parsed) (fun hid d hdm => by
        have hdp := (List.mem_filter.1 hdm).1
        have : Except.ok p ∈ dirResults host ps abs := by
          rw [hd]; exact List.mem_map_of_mem hp
        obtain ⟨q, hq, he⟩ := List.mem_map.1 this
        cases hr : descriptorsOf host ps abs q.2 with
        | error e => rw [hr] at he; cases he
        | ok ds =>
          rw [hr] at he
          cases he
          obtain ⟨f, hf, hdesc⟩ := descriptorsOf_mem hr d hdp
          obtain ⟨els, dt, hx, hno⟩ := hparse f (List.mem_flatMap.2 ⟨q, hq, hf⟩)
          unfold descriptorOf at hdesc
          dsimp only at hdesc
          rw [nameIn_eq, hx] at hdesc
          cases hdesc
          exact hno ((h3 httpRule).1 (hid ▸ List.mem_map_of_mem hl)))
    exact ⟨fs, h⟩
  · exact absurd hk h

theorem perm_map_ok {α : Type} {xs : List (Except Err α)} {ys : List α} (h : xs.Perm (ys.map .ok)) :
    ∃ zs : List α, xs = zs.map .ok ∧ zs.Perm ys := by
  refine ⟨xs.filterMap Except.toOption, ?_, ?_⟩
  · have hall : ∀ x ∈ xs, ∃ y, x = .ok y := fun x hx => by
      obtain ⟨y, _, rfl⟩ := List.mem_map.1 (h.mem_iff.1 hx)
      exact ⟨y, rfl⟩
    clear h
    induction xs with
    | nil => rfl
    | cons x xs ih =>
      obtain ⟨y, rfl⟩ := hall x List.mem_cons_self
      show _ = Except.ok y :: List.map Except.ok (xs.filterMap Except.toOption)
      rw [← ih fun x hx => hall x (List.mem_cons_of_mem _ hx)]
  · have := h.filterMap Except.toOption
    rw [List.filterMap_map] at this
    rw [show (Except.toOption ∘ (Except.ok : α → Except Err α)) = some from rfl, List.filterMap_some] at this
    exact this

/-- The order in which the directories are listed does not matter. -/
theorem run_perm {env : Env} {host : Host} {ps ps' : File.ProtoSet} {abs : Bool}
    (hw : ps'.dirPath = ps.dirPath) (hc : ps'.config = ps.config)
    (hp : ps'.dirPathToFiles.Perm ps.dirPathToFiles) {fs : List Text.Failure}
    (h : run env host ps abs = some (.ok fs)) : run env host ps' abs = some (.ok fs) := by
  obtain ⟨ls, hl, dirs, hd, hok, rfl⟩ := run_ok_iff.1 h
  have hdesc : ∀ fs, descriptorsOf host ps' abs fs = descriptorsOf host ps abs fs := by
    intro fs
    induction fs with
    | nil => rfl
    | cons f fs ih =>
      unfold descriptorsOf descriptorOf
      rw [ih, hc]
  have hperm : (dirResults host ps' abs).Perm (dirResults host ps abs) := by
    unfold dirResults
    rw [hw]
    simp only [hdesc]
    exact (hp.filter _).map _
  rw [hd] at hperm
  obtain ⟨dirs', hd', hpd⟩ : ∃ dirs' : List (Str × List FileDescriptor),
      dirResults host ps' abs = dirs'.map .ok ∧ dirs'.Perm dirs := by
    exact perm_map_ok hperm
  refine run_ok_iff.2 ⟨ls, by rw [hc]; exact hl, dirs', hd', ?_, ?_⟩
  · intro p hp l hl
    rw [hc]
    exact hok p (hpd.mem_iff.1 hp) l hl
  · rw [hc]
    exact C18_canonical _ _ (hpd.symm.flatMap_right _)

end Verif.Lint
