import Verif.Proof.Alike
import Verif.Proof.LintConfig
import Verif.Proof.Reflect
import Verif.Model.LintRun
import Verif.Props.Text

/-! # The lint run as a whole -/

namespace Verif.Lint

open Verif Proto Spec Proof.Reflect

/-- Two lists of linters that are alike one by one. -/
inductive AlikeAll : List Linter → List Linter → Prop
  | nil : AlikeAll [] []
  | cons {l m ls ms} : Alike l m → AlikeAll ls ms → AlikeAll (l :: ls) (m :: ms)

theorem AlikeAll.mem {ls ms : List Linter} (h : AlikeAll ls ms) : ∀ l ∈ ls, ∃ m ∈ ms, Alike l m := by
  induction h with
  | nil => exact fun _ h => nomatch h
  | cons h _ ih =>
    intro x hx
    rcases List.mem_cons.1 hx with rfl | hx
    · exact ⟨_, List.mem_cons_self, h⟩
    · obtain ⟨m, hm, ha⟩ := ih x hx
      exact ⟨m, List.mem_cons_of_mem _ hm, ha⟩

/-- The order of maps makes no other difference to the linters. -/
theorem allLinters_alike (env : Env) (o : Order) :
    AlikeAll (allLinters env) (allLinters { env with order := o }) := by
  unfold allLinters
  refine .cons (.refl _) ?_
  refine .cons (.refl _) ?_
  refine .cons (.refl _) ?_
  refine .cons (.refl _) ?_
  refine .cons (.refl _) ?_
  refine .cons (.refl _) ?_
  refine .cons (.refl _) ?_
  refine .cons (.refl _) ?_
  refine .cons (.refl _) ?_
  refine .cons (.refl _) ?_
  refine .cons (.refl _) ?_
  refine .cons (.refl _) ?_
  refine .cons (.refl _) ?_
  refine .cons (.refl _) ?_
  refine .cons (.refl _) ?_
  refine .cons (.refl _) ?_
  refine .cons (.refl _) ?_
  refine .cons (.refl _) ?_
  refine .cons (l := fileOptionsCSharpNamespaceSameInDirLinter env) (alike_fileOptionsSameInDir env o _ _) ?_
  refine .cons (.refl _) ?_
  refine .cons (.refl _) ?_
  refine .cons (.refl _) ?_
  refine .cons (.refl _) ?_
  refine .cons (.refl _) ?_
  refine .cons (.refl _) ?_
  refine .cons (.refl _) ?_
  refine .cons (.refl _) ?_
  refine .cons (.refl _) ?_
  refine .cons (.refl _) ?_
  refine .cons (l := fileOptionsGoPackageSameInDirLinter env) (alike_fileOptionsSameInDir env o _ _) ?_
  refine .cons (l := fileOptionsJavaMultipleFilesSameInDirLinter env) (alike_fileOptionsSameInDir env o _ _) ?_
  refine .cons (l := fileOptionsJavaPackageSameInDirLinter env) (alike_fileOptionsSameInDir env o _ _) ?_
  refine .cons (l := fileOptionsOBJCClassPrefixSameInDirLinter env) (alike_fileOptionsSameInDir env o _ _) ?_
  refine .cons (l := fileOptionsPHPNamespaceSameInDirLinter env) (alike_fileOptionsSameInDir env o _ _) ?_
  refine .cons (.refl _) ?_
  refine .cons (.refl _) ?_
  refine .cons (.refl _) ?_
  refine .cons (.refl _) ?_
  refine .cons (.refl _) ?_
  refine .cons (.refl _) ?_
  refine .cons (.refl _) ?_
  refine .cons (.refl _) ?_
  refine .cons (.refl _) ?_
  refine .cons (.refl _) ?_
  refine .cons (.refl _) ?_
  refine .cons (.refl _) ?_
  refine .cons (.refl _) ?_
  refine .cons (.refl _) ?_
  refine .cons (.refl _) ?_
  refine .cons (.refl _) ?_
  refine .cons (.refl _) ?_
  refine .cons (.refl _) ?_
  refine .cons (.refl _) ?_
  refine .cons (.refl _) ?_
  refine .cons (.refl _) ?_
  refine .cons (.refl _) ?_
  refine .cons (.refl _) ?_
  refine .cons (.refl _) ?_
  refine .cons (.refl _) ?_
  refine .cons (.refl _) ?_
  refine .cons (.refl _) ?_
  refine .cons (l := messagesHaveCommentsExceptRequestResponseTypesLinter env) ((alike_messagesExcept _ _ _).linter _ _) ?_
  refine .cons (l := messagesHaveSentenceCommentsExceptRequestResponseTypesLinter env) ((alike_messagesExcept _ _ _).linter _ _) ?_
  refine .cons (l := messagesNotEmptyExceptRequestResponseTypesLinter env) ((alike_notEmpty env o).linter _ _) ?_
  refine .cons (.refl _) ?_
  refine .cons (.refl _) ?_
  refine .cons (.refl _) ?_
  refine .cons (.refl _) ?_
  refine .cons (.refl _) ?_
  refine .cons (.refl _) ?_
  refine .cons (.refl _) ?_
  refine .cons (.refl _) ?_
  refine .cons (.refl _) ?_
  refine .cons (l := packagesSameInDirLinter env) (alike_packagesSameInDir env o) ?_
  refine .cons (.refl _) ?_
  refine .cons (.refl _) ?_
  refine .cons (.refl _) ?_
  refine .cons (.refl _) ?_
  refine .cons (.refl _) ?_
  refine .cons (.refl _) ?_
  refine .cons (.refl _) ?_
  refine .cons (.refl _) ?_
  refine .cons (l := requestResponseTypesOnlyInFileLinter env) ((alike_only env o).linter _ _) ?_
  refine .cons (.refl _) ?_
  refine .cons (.refl _) ?_
  refine .cons (.refl _) ?_
  refine .cons (.refl _) ?_
  refine .cons (.refl _) ?_
  refine .cons (.refl _) ?_
  refine .cons (.refl _) ?_
  refine .cons (.refl _) ?_
  refine .cons (.refl _) ?_
  refine .cons (.refl _) ?_
  refine .cons (l := wktDirectlyImportedLinter env) ((alike_wkt env o).linter _ _) ?_
  refine .cons (.refl _) ?_
  refine .cons (.refl _) ?_
  exact .nil

/-! ## Which runs succeed, and with what -/

/-- The failures of a check that went well. -/
def okOf : Option (Except Err (List Text.Failure)) → List Text.Failure
  | some (.ok fs) => fs
  | _ => []

/-- The check went well. -/
def IsOk (r : Option (Except Err (List Text.Failure))) : Prop := ∃ fs, r = some (.ok fs)

theorem collect_ok_iff {rs : List (Option (Except Err (List Text.Failure)))}
    {fs : List Text.Failure} :
    collect rs = some (.ok fs) ↔ (∀ r ∈ rs, IsOk r) ∧ fs = rs.flatMap okOf := by
  induction rs generalizing fs with
  | nil => simp [collect, eq_comm]
  | cons r rs ih =>
    match r with
    | none =>
      simp only [collect, List.forall_mem_cons]
      exact ⟨fun h => (nomatch h), fun ⟨⟨⟨_, h⟩, _⟩, _⟩ => nomatch h⟩
    | some (.error e) =>
      simp only [collect, List.forall_mem_cons]
      exact ⟨fun h => (nomatch h), fun ⟨⟨⟨_, h⟩, _⟩, _⟩ => nomatch h⟩
    | some (.ok gs) =>
      simp only [collect, List.forall_mem_cons, List.flatMap_cons]
      cases hr : collect rs with
      | none =>
        refine ⟨fun h => (nomatch h), fun ⟨⟨_, h⟩, _⟩ => ?_⟩
        rw [ih.2 ⟨h, rfl⟩] at hr; cases hr
      | some x =>
        cases x with
        | error e =>
          refine ⟨fun h => (nomatch h), fun ⟨⟨_, h⟩, _⟩ => ?_⟩
          rw [ih.2 ⟨h, rfl⟩] at hr; cases hr
        | ok hs =>
          obtain ⟨h1, h2⟩ := ih.1 hr
          subst h2
          constructor
          · intro h; cases h; exact ⟨⟨⟨_, rfl⟩, h1⟩, rfl⟩
          · rintro ⟨_, rfl⟩; rfl

/-- The directories of a run and their parsed files. -/
def dirResults (host : Host) (protoSet : File.ProtoSet) (absolutePaths : Bool) :
    List (Except Err (Str × List FileDescriptor)) :=
  (protoSet.dirPathToFiles.filter fun p => Str.hasPrefix p.1 protoSet.dirPath).map fun p =>
      match descriptorsOf host protoSet absolutePaths p.2 with
      | .error e => .error e
      | .ok ds => .ok (p.1, ds)

theorem map_ok_inj {α : Type} {xs ys : List α}
    (h : xs.map (Except.ok (ε := Err)) = ys.map .ok) : xs = ys :=
  (List.map_inj_right fun _ _ h => by cases h; rfl).1 h

theorem run_ok_iff {env : Env} {host : Host} {ps : File.ProtoSet} {abs : Bool}
    {fs : List Text.Failure} :
    run env host ps abs = some (.ok fs) ↔ ∃ ls, getLinters env ps.config.lint = .ok ls ∧
      ∃ dirs : List (Str × List FileDescriptor), dirResults host ps abs = dirs.map .ok ∧
        (∀ p ∈ dirs, ∀ l ∈ ls, IsOk (checkOne host l p.1 p.2 ps.config.lint.ignoreIDToFilePaths)) ∧
        fs = Text.sortFailures (dirs.flatMap fun p => ls.flatMap fun l =>
          okOf (checkOne host l p.1 p.2 ps.config.lint.ignoreIDToFilePaths)) := by
  unfold run
  cases hl : getLinters env ps.config.lint with
  | error e => exact ⟨fun h => (nomatch h), fun ⟨ls, h, _⟩ => nomatch h⟩
  | ok ls =>
  dsimp only
  cases hd : getDirPathToDescriptors env.order host ps abs with
  | error e =>
    refine ⟨fun h => (nomatch h), fun ⟨_, h1, dirs, h, _⟩ => ?_⟩
    have : getDirPathToDescriptors env.order host ps abs = .ok dirs := mapLoop_ok_iff.2 h
    rw [hd] at this; cases this
  | ok dirs =>
  have hd' : dirResults host ps abs = dirs.map .ok := mapLoop_ok_iff.1 hd
  dsimp only
  unfold checkMultiple
  have hmem : ∀ {x}, x ∈ ((env.order.ord [s%"CheckMultiple"] dirs).flatMap fun p =>
      ls.map fun l => checkOne host l p.1 p.2 ps.config.lint.ignoreIDToFilePaths) ↔
      ∃ p ∈ dirs, ∃ l ∈ ls, checkOne host l p.1 p.2 ps.config.lint.ignoreIDToFilePaths = x := by
    intro x
    simp only [List.mem_flatMap, List.mem_map, (env.order.perm _ dirs).mem_iff]
  have hperm : (((env.order.ord [s%"CheckMultiple"] dirs).flatMap fun p =>
      ls.map fun l => checkOne host l p.1 p.2 ps.config.lint.ignoreIDToFilePaths).flatMap okOf).Perm
      (dirs.flatMap fun p => ls.flatMap fun l =>
          okOf (checkOne host l p.1 p.2 ps.config.lint.ignoreIDToFilePaths)) := by
    rw [List.flatMap_assoc]
    simp only [List.flatMap_map]
    exact (env.order.perm _ dirs).flatMap_right _
  cases hc : collect ((env.order.ord [s%"CheckMultiple"] dirs).flatMap fun p =>
      ls.map fun l => checkOne host l p.1 p.2 ps.config.lint.ignoreIDToFilePaths) with
  | none =>
    refine ⟨fun h => (nomatch h), ?_⟩
    rintro ⟨_, h1, dirs', h, hok, _⟩
    cases h1
    rw [hd'] at h
    have : dirs = dirs' := map_ok_inj h
    subst this
    rw [collect_ok_iff.2 ⟨fun r hr => by
      obtain ⟨p, hp, l, hl, rfl⟩ := hmem.1 hr; exact hok p hp l hl, rfl⟩] at hc
    cases hc
  | some x =>
  cases x with
  | error e =>
    refine ⟨fun h => (nomatch h), ?_⟩
    rintro ⟨_, h1, dirs', h, hok, _⟩
    cases h1
    rw [hd'] at h
    have : dirs = dirs' := map_ok_inj h
    subst this
    rw [collect_ok_iff.2 ⟨fun r hr => by
      obtain ⟨p, hp, l, hl, rfl⟩ := hmem.1 hr; exact hok p hp l hl, rfl⟩] at hc
    cases hc
  | ok gs =>
    obtain ⟨h1, rfl⟩ := collect_ok_iff.1 hc
    constructor
    · intro h
      cases h
      exact ⟨ls, rfl, dirs, hd', fun p hp l hl => h1 _ (hmem.2 ⟨p, hp, l, hl, rfl⟩),
        Props.C18_canonical _ _ hperm⟩
    · rintro ⟨_, h2, dirs', h, _, rfl⟩
      cases h2
      rw [hd'] at h
      have : dirs = dirs' := map_ok_inj h
      subst this
      dsimp only
      rw [Props.C18_canonical _ _ hperm]

/-! ## Alike runs -/

theorem Alike.filterIgnores {l m : Linter} (h : Alike l m) (host : Host)
    (ign : GoMap Str (List Str)) (ds : List FileDescriptor) :
    filterIgnores host l ign ds = filterIgnores host m ign ds := by
  induction ds with
  | nil => rfl
  | cons d ds ih =>
    unfold Lint.filterIgnores
    have : shouldIgnore host l d ign = shouldIgnore host m d ign := by
      unfold shouldIgnore; rw [h.id]
    rw [this, ih]

theorem Alike.checkOne {l m : Linter} (h : Alike l m) (host : Host) (dirPath : Str)
    (ds : List FileDescriptor) (ign : GoMap Str (List Str))
    (hok : IsOk (checkOne host l dirPath ds ign)) :
    IsOk (checkOne host m dirPath ds ign) ∧
      (okOf (checkOne host l dirPath ds ign)).Perm (okOf (checkOne host m dirPath ds ign)) := by
  unfold Lint.checkOne at hok ⊢
  rw [← h.filterIgnores]
  obtain ⟨fs, hfs⟩ := hok
  cases hf : Lint.filterIgnores host l ign ds with
  | none => rw [hf] at hfs; cases hfs
  | some x =>
    cases x with
    | error e => rw [hf] at hfs; cases hfs
    | ok filtered =>
      rw [hf] at hfs
      have hfs' : l.check dirPath filtered = some (.ok fs) := hfs
      obtain ⟨gs, hg, hp⟩ := h.same hfs'
      dsimp only
      rw [hg, hfs']
      exact ⟨⟨gs, rfl⟩, hp⟩

theorem eq_of_map_nodup {α β : Type} {f : α → β} {xs : List α} (h : (xs.map f).Nodup) {a b : α}
    (ha : a ∈ xs) (hb : b ∈ xs) (hab : f a = f b) : a = b := by
  induction xs with
  | nil => cases ha
  | cons x xs ih =>
    rw [List.map_cons, List.nodup_cons] at h
    rcases List.mem_cons.1 ha with rfl | ha <;> rcases List.mem_cons.1 hb with rfl | hb
    · rfl
    · exact absurd (List.mem_map.2 ⟨_, hb, hab.symm⟩) h.1
    · rename_i h'
      exact absurd (List.mem_map.2 ⟨_, h', hab⟩) h.1
    · exact ih h.2 ha hb

theorem flatMap_perm_congr {α β : Type} {xs : List α} {f g : α → List β}
    (h : ∀ x ∈ xs, (f x).Perm (g x)) : (xs.flatMap f).Perm (xs.flatMap g) := by
  induction xs with
  | nil => exact .refl _
  | cons x xs ih =>
    rw [List.flatMap_cons, List.flatMap_cons]
    exact (h x List.mem_cons_self).append (ih fun x hx => h x (List.mem_cons_of_mem _ hx))

theorem AlikeAll.mem' {ls ms : List Linter} (h : AlikeAll ls ms) : ∀ m ∈ ms, ∃ l ∈ ls, Alike l m := by
  induction h with
  | nil => exact fun _ h => nomatch h
  | cons h _ ih =>
    intro x hx
    rcases List.mem_cons.1 hx with rfl | hx
    · exact ⟨_, List.mem_cons_self, h⟩
    · obtain ⟨m, hm, ha⟩ := ih x hx
      exact ⟨m, List.mem_cons_of_mem _ hm, ha⟩

theorem AlikeAll.flatMap {ls ms : List Linter} (h : AlikeAll ls ms)
    {f : Linter → List Text.Failure}
    (hf : ∀ l ∈ ls, ∀ m, Alike l m → (f l).Perm (f m)) : (ls.flatMap f).Perm (ms.flatMap f) := by
  induction h with
  | nil => exact .refl _
  | cons h _ ih =>
    rw [List.flatMap_cons, List.flatMap_cons]
    exact (hf _ List.mem_cons_self _ h).append (ih fun l hl => hf l (List.mem_cons_of_mem _ hl))

/-- Linters with the same names can be put in the same order. -/
theorem alike_perm {ls ms : List Linter} (h : ∀ l ∈ ls, ∃ m ∈ ms, Alike l m)
    (hl : (ls.map (·.id)).Nodup) (hm : (ms.map (·.id)).Nodup)
    (hs : ∀ id ∈ ms.map (·.id), id ∈ ls.map (·.id)) : ∃ ms', ms'.Perm ms ∧ AlikeAll ls ms' := by
  have : ∃ ms', AlikeAll ls ms' ∧ ∀ m ∈ ms', m ∈ ms := by
    clear hl hs
    induction ls with
    | nil => exact ⟨[], .nil, fun _ h => nomatch h⟩
    | cons l ls ih =>
      obtain ⟨ms', h1, h2⟩ := ih fun l hl => h l (List.mem_cons_of_mem _ hl)
      obtain ⟨m, hm, ha⟩ := h l List.mem_cons_self
      exact ⟨m :: ms', .cons ha h1, List.forall_mem_cons.2 ⟨hm, h2⟩⟩
  obtain ⟨ms', ha, hsub⟩ := this
  have hid : ms'.map (·.id) = ls.map (·.id) := by
    clear hsub h hl hs
    induction ha with
    | nil => rfl
    | cons h _ ih => rw [List.map_cons, List.map_cons, ih, h.id]
  refine ⟨ms', (List.perm_ext_iff_of_nodup ?_ ?_).2 fun m => ⟨hsub m, fun hm' => ?_⟩, ha⟩
  · exact List.Pairwise.of_map _ (fun _ _ hne he => hne (congrArg _ he)) (hid ▸ hl)
  · exact List.Pairwise.of_map _ (fun _ _ hne he => hne (congrArg _ he)) hm
  · have := hs _ (List.mem_map_of_mem hm')
    rw [← hid] at this
    obtain ⟨m', h1, h2⟩ := List.mem_map.1 this
    exact eq_of_map_nodup hm (hsub m' h1) hm' h2 ▸ h1

theorem run_order {env : Env} (o : Order) {host : Host} {ps : File.ProtoSet} {abs : Bool}
    {fs : List Text.Failure} (h : run env host ps abs = some (.ok fs)) :
    run { env with order := o } host ps abs = some (.ok fs) := by
  obtain ⟨ls, hl, dirs, hd, hok, rfl⟩ := run_ok_iff.1 h
  rcases getLinters_spec env ps.config.lint with ⟨hk, ls1, h1, hsub, hnd, hids⟩ | ⟨_, e, he⟩
  · rw [hl] at h1; cases h1
    rcases getLinters_spec { env with order := o } ps.config.lint with
      ⟨_, ms, hm, hsub', hnd', hids'⟩ | ⟨hn, _⟩
    · have inj : ∀ a ∈ allLinters { env with order := o },
          ∀ b ∈ allLinters { env with order := o }, a.id = b.id → a = b := by
        have hall : ((allLinters { env with order := o }).map (·.id)).Nodup := by
          rw [allLinters_ids]; exact allIDs_nodup
        intro a ha b hb hab
        exact eq_of_map_nodup hall ha hb hab
      have hφ : ∀ l ∈ ls, ∃ m ∈ ms, Alike l m := by
        intro l hl
        obtain ⟨m, hm, ha⟩ := (allLinters_alike env o).mem l (hsub l hl)
        have : l.id ∈ ms.map (·.id) := (hids' _).2 ((hids _).1 (List.mem_map_of_mem hl))
        obtain ⟨m', hm', he⟩ := List.mem_map.1 this
        have := inj m' (hsub' m' hm') m hm (he.trans ha.id)
        subst this
        exact ⟨m', hm', ha⟩
      obtain ⟨ms', hp, ha⟩ := alike_perm hφ hnd hnd' fun id hid => (hids _).2 ((hids' _).1 hid)
      refine run_ok_iff.2 ⟨ms, hm, dirs, hd, ?_, ?_⟩
      · intro p hp' m hm'
        obtain ⟨l, hl, hlm⟩ := ha.mem' m (hp.mem_iff.2 hm')
        exact (hlm.checkOne host _ _ _ (hok p hp' l hl)).1
      · apply Props.C18_canonical
        refine flatMap_perm_congr fun p hp' => ?_
        refine List.Perm.trans ?_ (hp.flatMap_right _)
        exact ha.flatMap fun l hl m hlm => (hlm.checkOne host _ _ _ (hok p hp' l hl)).2
    · exact absurd hk hn
  · rw [hl] at he; cases he

end Verif.Lint
