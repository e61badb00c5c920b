import Verif.Proof.LintIgnores
import Verif.Proof.Settings
import Verif.Model.GenerateIgnores

/-! # The generated ignores -/

namespace Verif.Lint

open Verif Proto Spec Props Str

/-- A path below a directory, made relative to it and located again. -/
theorem locate_rel {p d : Str} (h : Below p d) :
    ∃ r, Path.rel d p = some r ∧ Settings.resolve d r = p := by
  obtain ⟨bs, ts, hc, hne, rfl, rfl⟩ := h
  obtain ⟨hb, ht⟩ := Path.components_append.1 hc
  refine ⟨_, Path.rel_within hc hne, ?_⟩
  have hrel : Path.isAbs (Str.join s%"/" ts) = false := by
    cases ts with
    | nil => exact absurd rfl hne
    | cons t ts =>
      obtain ⟨h1, h2, _⟩ := ht t List.mem_cons_self
      cases t with
      | nil => exact absurd rfl h1
      | cons c t =>
        have hn : c ≠ '/' := fun he => h2 (he ▸ List.mem_cons_self)
        cases ts <;> simp [Str.join, Path.isAbs, Str.hasPrefix, List.isPrefixOf, hn, eq_comm (a := '/')]
  unfold Settings.resolve
  rw [hrel]
  simp only [Bool.not_false, if_true]
  rw [Path.joinPath_absPath hb, Str.splitChar_join '/' hne (Path.noSlash ht), Path.foldl_cleanStep ht]
  simp only [List.reverse_append, List.reverse_reverse]
  exact Path.clean_absPath hc

/-- What the loop over the failures collects. -/
theorem addIgnores_spec {dir : Str} {gs : List Text.Failure}
    (hg : ∀ f ∈ gs, f.lintID ≠ [] ∧ f.filename ≠ [] ∧ Below f.filename dir)
    (m : GoMap Str (List Str)) : ∃ m', addIgnores dir m gs = .ok m' ∧
      (∀ id, (∃ v, GoMap.get? m' id = some v) ↔
        (∃ v, GoMap.get? m id = some v) ∨ ∃ f ∈ gs, f.lintID = id) ∧
      ∀ id r, r ∈ (GoMap.get? m' id).getD [] ↔ r ∈ (GoMap.get? m id).getD [] ∨
        ∃ f ∈ gs, f.lintID = id ∧ Path.rel dir f.filename = some r := by
  induction gs generalizing m with
  | nil => exact ⟨m, rfl, by simp, by simp⟩
  | cons f gs ih =>
    obtain ⟨h1, h2, h3⟩ := hg f List.mem_cons_self
    obtain ⟨r, hr, _⟩ := locate_rel h3
    unfold addIgnores addIgnore
    rw [if_pos (by simp [h1, h2]), hr]
    dsimp only
    obtain ⟨m', he, hk, hm⟩ := ih (fun f hf => hg f (List.mem_cons_of_mem _ hf))
      (GoMap.set m f.lintID (setInsert ((GoMap.get? m f.lintID).getD []) r))
    refine ⟨m', he, fun id => ?_, fun id q => ?_⟩
    · rw [hk, GoMap.get?_set]
      by_cases hid : f.lintID = id
      · rw [if_pos hid]
        exact ⟨fun _ => .inr ⟨f, List.mem_cons_self, hid⟩, fun _ => .inl ⟨_, rfl⟩⟩
      · rw [if_neg hid]
        simp only [List.mem_cons, exists_eq_or_imp, hid, false_or]
    · rw [hm, GoMap.get?_set]
      by_cases hid : f.lintID = id
      · rw [if_pos hid]
        subst hid
        simp only [Option.getD_some, mem_setInsert, List.mem_cons, exists_eq_or_imp, hr, true_and,
          Option.some.injEq, or_assoc, eq_comm (a := r)]
      · rw [if_neg hid]
        simp only [List.mem_cons, exists_eq_or_imp, hid, false_or, false_and]

theorem mem_lintIgnores {o : Order} {m : GoMap Str (List Str)} {x : Str × List Str} :
    x ∈ ignoresOf o m ↔ x.1 ∈ GoMap.keys m ∧
      x.2 = sortStrs (o.ord [s%"generateIgnores", x.1] ((GoMap.get? m x.1).getD [])) := by
  unfold ignoresOf
  rw [List.mem_map]
  constructor
  · rintro ⟨id, hid, rfl⟩
    exact ⟨((sortBy_perm _).trans (o.perm _ _)).mem_iff.1 hid, rfl⟩
  · rintro ⟨h1, h2⟩
    exact ⟨x.1, ((sortBy_perm _).trans (o.perm _ _)).mem_iff.2 h1, Prod.ext rfl h2.symm⟩

theorem mem_keys {m : GoMap Str (List Str)} {id : Str} :
    id ∈ GoMap.keys m ↔ ∃ v, GoMap.get? m id = some v := by
  constructor
  · intro h
    cases hg : GoMap.get? m id with
    | some v => exact ⟨v, rfl⟩
    | none =>
      obtain ⟨p, hp, he⟩ := List.mem_map.1 h
      exact absurd he (GoMap.get?_none.1 hg p hp)
  · rintro ⟨v, hv⟩
    exact List.mem_map.2 ⟨_, GoMap.get?_some_mem hv, rfl⟩

/-- The keys of the ignores of a configuration. -/
theorem settings_keys (l : List (Str × List Str)) (d : Str) :
    ∀ p ∈ Settings.ignoresOf l d, ∃ x ∈ l, p.1 = toUpper x.1 := by
  have inner : ∀ (P : Str → Prop) (id : Str), P id → ∀ (ps : List Str) (m : GoMap Str (List Str)),
      (∀ p ∈ m, P p.1) →
      ∀ p ∈ ps.foldl (fun m p => Settings.addIgnore m id (Settings.resolve d p)) m, P p.1 := by
    intro P id hid ps
    induction ps with
    | nil => exact fun _ h => h
    | cons q ps ih =>
      intro m hm
      rw [List.foldl_cons]
      refine ih _ fun p hp => ?_
      have : p.1 ∈ (Settings.addIgnore m id (Settings.resolve d q)).map (·.1) := List.mem_map_of_mem hp
      unfold Settings.addIgnore at this
      rw [GoMap.set_keys] at this
      split at this
      · obtain ⟨x, hx, he⟩ := List.mem_map.1 this
        exact he ▸ hm x hx
      · rcases List.mem_append.1 this with h | h
        · obtain ⟨x, hx, he⟩ := List.mem_map.1 h
          exact he ▸ hm x hx
        · rw [List.mem_singleton.1 h]; exact hid
  have outer : ∀ (all l : List (Str × List Str)) (m : GoMap Str (List Str)), (∀ x ∈ l, x ∈ all) →
      (∀ p ∈ m, ∃ x ∈ all, p.1 = toUpper x.1) →
      ∀ p ∈ l.foldl (fun m ignore => ignore.2.foldl (fun m p =>
        Settings.addIgnore m (toUpper ignore.1) (Settings.resolve d p)) m) m,
        ∃ x ∈ all, p.1 = toUpper x.1 := by
    intro all l
    induction l with
    | nil => exact fun _ _ h => h
    | cons x l ih =>
      intro m hl hm
      rw [List.foldl_cons]
      exact ih _ (fun y hy => hl y (List.mem_cons_of_mem _ hy))
        (inner (fun k => ∃ x ∈ all, k = toUpper x.1) _ ⟨x, hl x List.mem_cons_self, rfl⟩ _ _ hm)
  exact outer l l [] (fun _ h => h) fun _ h => nomatch h

theorem docRule_upper : ∀ id, DocRule id → toUpper id = id := by
  have : ∀ row ∈ docRules, toUpper row.1 = row.1 := by decide +kernel
  rintro id ⟨row, hr, rfl⟩
  exact this row hr

/-- What a run without ignores reports. -/
theorem run_lands {env : Env} {host : Host} {ps : File.ProtoSet} {abs : Bool}
    (hs : Sound host ps abs) {gs : List Text.Failure}
    (hg : run env host (ignoring [] ps) abs = some (.ok gs)) :
    ∃ ls, ∃ dirs : List (Str × List FileDescriptor), getLinters env (ignoring [] ps).config.lint = .ok ls ∧
      dirResults host ps abs = dirs.map .ok ∧ (∀ l ∈ ls, l ∈ allLinters env) ∧
      (∀ f, f ∈ gs ↔ ∃ p ∈ dirs, ∃ l ∈ ls, ∃ fs, l.check p.1 p.2 = some (.ok fs) ∧ f ∈ fs) ∧
      ∀ f ∈ gs, DocRule f.lintID ∧ ∃ p ∈ dirs, ∃ d ∈ p.2, f.filename = d.filename := by
  obtain ⟨ls, hl, dirs, hd, hok, rfl⟩ := (run_ignoring_iff hs).1 hg
  have hall : ∀ l ∈ ls, l ∈ allLinters env := by
    rcases getLinters_spec env (ignoring [] ps).config.lint with ⟨_, ls', h1, h2, _⟩ | ⟨_, e, h1⟩
    · rw [hl] at h1; cases h1; exact h2
    · rw [hl] at h1; cases h1
  have hgood := dirResults_good hs hd
  simp only [filter_kept_nil] at hok
  have hmem : ∀ f, f ∈ Text.sortFailures (dirs.flatMap fun p => ls.flatMap fun l =>
      okOf (l.check p.1 (p.2.filter fun d => kept host ps.config.dirPath [] l.id d.filename))) ↔
      ∃ p ∈ dirs, ∃ l ∈ ls, ∃ fs, l.check p.1 p.2 = some (.ok fs) ∧ f ∈ fs := by
    intro f
    rw [(C18_sorted _).1.mem_iff]
    simp only [filter_kept_nil, List.mem_flatMap]
    refine exists_congr fun p => and_congr_right fun hp => exists_congr fun l =>
      and_congr_right fun hlm => ?_
    obtain ⟨fs, hfs⟩ := hok p hp l hlm
    rw [hfs]
    exact ⟨fun h => ⟨fs, rfl, h⟩, fun ⟨fs', h1, h2⟩ => by cases h1; exact h2⟩
  refine ⟨ls, dirs, hl, hd, hall, hmem, fun f hf => ?_⟩
  obtain ⟨p, hp, l, hlm, fs, hfs, hf⟩ := (hmem f).1 hf
  have hdoc : DocRule l.id := by
    rw [← mem_allIDs, ← allLinters_ids env]
    exact List.mem_map_of_mem (hall l hlm)
  have hparsed : ∀ d ∈ p.2, Parsed d := fun d hd => (hgood p hp d hd).parsed
  rcases rule_cases env l (hall l hlm) with ⟨_, h⟩ | h
  · obtain ⟨g, h1, h2, _⟩ := h p.1 p.2 fs hparsed hfs
    rw [h1] at hf
    obtain ⟨d, hd, hf⟩ := List.mem_flatMap.1 hf
    obtain ⟨e1, e2⟩ := h2 d hd f hf
    exact ⟨e2 ▸ hdoc, p, hp, d, hd, e1⟩
  · obtain ⟨fs', h1, h2⟩ := h.lands p.1 p.2 hparsed
    rw [hfs] at h1; cases h1
    obtain ⟨e1, d, hd, e2⟩ := h2 f hf
    exact ⟨e1 ▸ hdoc, p, hp, d, hd, e2⟩

theorem agree_filter {value : FileDescriptor → Option Str} {ds : List FileDescriptor}
    (h : Agree value ds) (p : FileDescriptor → Bool) : Agree value (ds.filter p) :=
  fun d hd d' hd' => h d (List.mem_filter.1 hd).1 d' (List.mem_filter.1 hd').1

/-- If everything that was reported is ignored, nothing is reported any more. -/
theorem ignoring_all {env : Env} {host : Host} {ps : File.ProtoSet} {abs : Bool}
    (hs : Sound host ps abs) {m : GoMap Str (List Str)} (hk : ∀ p ∈ m, DocRule p.1)
    {gs : List Text.Failure} (hg : run env host (ignoring [] ps) abs = some (.ok gs))
    (hign : ∀ f ∈ gs, Ignored host ps.config.dirPath m f) :
    run env host (ignoring m ps) abs = some (.ok []) := by
  obtain ⟨fs, hf, hnot, hcount⟩ := ignoring_spec hs hk hg
  rw [hf]
  congr 2
  refine List.eq_nil_iff_forall_not_mem.2 fun f hmem => ?_
  by_cases hdir : f.lintID ∈ directoryRules
  · obtain ⟨ls, dirs, hl, hd, hall, hgs, _⟩ := run_lands hs hg
    obtain ⟨ls', hl', dirs', hd', hok, rfl⟩ := (run_ignoring_iff hs).1 hf
    rw [getLinters_ignoring hk hl] at hl'
    cases hl'
    rw [hd] at hd'
    cases map_ok_inj hd'
    rw [(C18_sorted _).1.mem_iff] at hmem
    obtain ⟨p, hp, hmem⟩ := List.mem_flatMap.1 hmem
    obtain ⟨l, hlm, hmem⟩ := List.mem_flatMap.1 hmem
    have hgood := dirResults_good hs hd
    have hparsed : ∀ d ∈ p.2, Parsed d := fun d hd => (hgood p hp d hd).parsed
    rcases rule_cases env l (hall l hlm) with ⟨hne, h⟩ | h
    · obtain ⟨fs, hfs⟩ := hok p hp l hlm
      rw [hfs] at hmem
      obtain ⟨g, h1, h2, _⟩ := h p.1 _ fs
        (fun d hd => hparsed d (List.mem_filter.1 hd).1) hfs
      have hmem' : f ∈ fs := hmem
      rw [h1] at hmem'
      obtain ⟨d, hd, hmem'⟩ := List.mem_flatMap.1 hmem'
      exact hne ((h2 d hd f hmem').2 ▸ hdir)
    · obtain ⟨many, value, hr, hin⟩ := h.reports
      obtain ⟨all, ha1, ha2, ha3⟩ := hr p.1 p.2
      -- everything at a reported place is ignored
      have hplace : ∀ pos ∈ p.2.flatMap many ++
          (if ¬ Agree value p.2 then p.2.map fun d => ({ filename := d.filename } : Position) else []),
          IgnoredFor host ps.config.dirPath m l.id pos.filename := by
        intro pos hpos
        obtain ⟨f', hf', he⟩ := List.mem_map.1 (ha2.mem_iff.2 hpos)
        have := hign f' ((hgs f').2 ⟨p, hp, l, hlm, all, ha1, hf'⟩)
        unfold Ignored at this
        rw [ha3 f' hf'] at this
        rw [← he]
        exact this
      have hkeep : ∀ d ∈ p.2.filter fun d => kept host ps.config.dirPath m l.id d.filename,
          d ∈ p.2 ∧ ¬ IgnoredFor host ps.config.dirPath m l.id d.filename := by
        intro d hd
        obtain ⟨h1, h2⟩ := List.mem_filter.1 hd
        simp only [kept, decide_eq_true_eq] at h2
        exact ⟨h1, h2⟩
      obtain ⟨some', hs1, hs2, hs3⟩ := hr p.1
        (p.2.filter fun d => kept host ps.config.dirPath m l.id d.filename)
      rw [hs1] at hmem
      have hpl := place_mem hs2 hmem
      rcases List.mem_append.1 hpl with hm | hm
      · obtain ⟨d, hd, hm⟩ := List.mem_flatMap.1 hm
        obtain ⟨h1, h2⟩ := hkeep d hd
        refine h2 ?_
        rw [← hin d (hparsed d h1) _ hm]
        exact hplace _ (List.mem_append_left _ (List.mem_flatMap.2 ⟨d, h1, hm⟩))
      · split at hm
        · rename_i hdis
          have hdis' : ¬ Agree value p.2 := fun h => hdis (agree_filter h _)
          obtain ⟨d, hd, _⟩ := List.mem_map.1 hm
          obtain ⟨h1, h2⟩ := hkeep d hd
          refine h2 (hplace { filename := d.filename } (List.mem_append_right _ ?_))
          rw [if_pos hdis']
          exact List.mem_map.2 ⟨d, h1, rfl⟩
        · cases hm
  · have hn := hnot f hmem
    have := hcount f hdir hn
    have hpos : 0 < gs.count f := by rw [← this]; exact List.count_pos_iff.2 hmem
    exact hn (hign f (List.count_pos_iff.1 hpos))

/-- The configuration with the generated ignores is clean. -/
theorem generated_clean {env : Env} {host : Host} {ps : File.ProtoSet} (hs : Sound host ps true)
    (habs : ∀ p ∈ ps.dirPathToFiles, ∀ f ∈ p.2, Path.isAbs f.path = true)
    {gs : List Text.Failure} (hg : run env host (ignoring [] ps) true = some (.ok gs)) :
    (gs = [] ∧ generateIgnores env host ps = some (.ok none)) ∨
    ∃ e, generateIgnores env host ps = some (.ok (some e)) ∧
      (∀ f ∈ gs, Ignored host ps.config.dirPath (Settings.ignoresOf e.ignores ps.config.dirPath) f) ∧
      ∀ p ∈ Settings.ignoresOf e.ignores ps.config.dirPath, DocRule p.1 := by
  have hgen : generateIgnores env host ps = if gs.length = 0 then some (.ok none) else
      match addIgnores ps.config.dirPath [] gs with
      | .error e => some (.error e)
      | .ok m => some (.ok (some { ignores := ignoresOf env.order m })) := by
    unfold generateIgnores
    have hg' : run env host { ps with config := { ps.config with
      lint := { ps.config.lint with ignoreIDToFilePaths := [] } } } true = some (.ok gs) := hg
    dsimp only
    rw [hg']
    rfl
  obtain ⟨ls, dirs, hl, hd, hall, hgs, hland⟩ := run_lands hs hg
  have hgood := dirResults_good hs hd
  have hname : ∀ p ∈ dirs, ∀ d ∈ p.2, Path.isAbs d.filename = true := by
    intro p hp d hdm
    have : Except.ok p ∈ dirResults host ps true := by rw [hd]; exact List.mem_map_of_mem hp
    obtain ⟨q, hq, he⟩ := List.mem_map.1 this
    cases hr : descriptorsOf host ps true q.2 with
    | error e => rw [hr] at he; cases he
    | ok ds =>
      rw [hr] at he
      cases he
      obtain ⟨f, hf, hdesc⟩ := descriptorsOf_mem hr d hdm
      have h1 := habs q (List.mem_filter.1 hq).1 f hf
      unfold descriptorOf at hdesc
      dsimp only at hdesc
      rw [if_pos rfl] at hdesc
      cases hparse : host.parse f.path f.path with
      | error e => rw [hparse] at hdesc; cases hdesc
      | ok x =>
        obtain ⟨els, data⟩ := x
        rw [hparse] at hdesc
        cases hdesc
        exact h1
  have hfile : ∀ f ∈ gs, DocRule f.lintID ∧ f.filename ≠ [] ∧ LiesAt host f.filename f.filename ∧
      Below f.filename ps.config.dirPath := by
    intro f hf
    obtain ⟨h1, p, hp, d, hdm, he⟩ := hland f hf
    obtain ⟨path, h3, h4⟩ := (hgood p hp d hdm).lies
    have ha := hname p hp d hdm
    have h3' : LiesAt host d.filename d.filename := by unfold LiesAt; rw [ha, if_pos rfl]
    rw [liesAt_unique h3 h3'] at h4
    rw [he]
    exact ⟨h1, parsed_named (hgood p hp d hdm).parsed, h3', h4⟩
  by_cases hz : gs.length = 0
  · exact .inl ⟨List.length_eq_zero_iff.1 hz, by rw [hgen, if_pos hz]⟩
  · refine .inr ?_
    have hdocne : ∀ id, DocRule id → id ≠ [] := by
      have : ∀ row ∈ docRules, row.1 ≠ [] := by decide +kernel
      rintro id ⟨row, hr, rfl⟩
      exact this row hr
    obtain ⟨m, hm, hkeys, hvals⟩ := addIgnores_spec (dir := ps.config.dirPath) (gs := gs)
      (fun f hf => ⟨hdocne _ (hfile f hf).1, (hfile f hf).2.1, (hfile f hf).2.2.2⟩) []
    rw [hgen, if_neg hz, hm]
    refine ⟨_, rfl, fun f hf => ?_, fun p hp => ?_⟩
    · obtain ⟨hdoc, _, hlies, hbelow⟩ := hfile f hf
      obtain ⟨r, hr, hres⟩ := locate_rel hbelow
      have hdirabs := (Path.below_isAbsPath hbelow).2
      have hin : f.filename ∈ (GoMap.get? (Settings.ignoresOf (ignoresOf env.order m)
          ps.config.dirPath) f.lintID).getD [] := by
        refine (Settings.mem_ignoresOf hdirabs _ _ _).2 ⟨(f.lintID,
          sortStrs (env.order.ord [s%"generateIgnores", f.lintID] ((GoMap.get? m f.lintID).getD []))),
          mem_lintIgnores.2 ⟨mem_keys.2 ((hkeys _).2 (.inr ⟨f, hf, rfl⟩)), rfl⟩,
          docRule_upper _ hdoc, r, ?_, ?_⟩
        · exact ((sortBy_perm _).trans (env.order.perm _ _)).mem_iff.2
            ((hvals _ _).2 (.inr ⟨f, hf, rfl, hr⟩))
        · rw [← Settings.resolve_eq hdirabs, hres]
      cases hget : GoMap.get? (Settings.ignoresOf (ignoresOf env.order m) ps.config.dirPath) f.lintID with
      | none => rw [hget] at hin; cases hin
      | some paths =>
        rw [hget] at hin
        exact ⟨paths, f.filename, hget, hlies, f.filename, hin,
          Path.within_refl (Path.below_isAbsPath hbelow).1, hbelow⟩
    · obtain ⟨x, hx, he⟩ := settings_keys _ _ p hp
      rcases (hkeys _).1 (mem_keys.1 (mem_lintIgnores.1 hx).1) with ⟨_, h⟩ | ⟨f, hf, hid⟩
      · cases h
      · have := (hfile f hf).1
        rw [hid] at this
        rw [he, docRule_upper _ this]
        exact this

end Verif.Lint
