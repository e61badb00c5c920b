import Verif.Proof.LintIDs
import Verif.Proof.Map

/-! # Lemmas about the linter tables and `getLinters` -/

namespace Verif.Lint

open Verif Spec

/-! ## The tables -/

theorem allIDs_perm : allIDs.Perm (docRules.map (·.1)) :=
  List.isPerm_iff.1 (by decide +kernel)

theorem docRules_nodup : (docRules.map (·.1)).Nodup := by decide +kernel

/-- The names the documentation puts into a group. -/
def docGroupIDs (g : Str) : List Str := (docRules.filter fun r => g ∈ r.2).map (·.1)

theorem mem_docGroupIDs {g id : Str} : id ∈ docGroupIDs g ↔ DocInGroup g id := by
  simp only [docGroupIDs, List.mem_map, List.mem_filter, DocInGroup, decide_eq_true_eq]
  exact ⟨fun ⟨r, ⟨h1, h2⟩, h3⟩ => ⟨r, h1, h3, h2⟩, fun ⟨r, h1, h3, h2⟩ => ⟨r, ⟨h1, h2⟩, h3⟩⟩

theorem googleIDs_perm : googleIDs.Perm (docGroupIDs s%"google") :=
  List.isPerm_iff.1 (by decide +kernel)

theorem uber1IDs_perm : uber1IDs.Perm (docGroupIDs s%"uber1") :=
  List.isPerm_iff.1 (by decide +kernel)

theorem uber2IDs_perm : uber2IDs.Perm (docGroupIDs s%"uber2") :=
  List.isPerm_iff.1 (by decide +kernel)

theorem emptyIDs_perm : ([] : List Str).Perm (docGroupIDs s%"empty") :=
  List.isPerm_iff.1 (by decide +kernel)

theorem docGroupIDs_nodup (g : Str) : (docGroupIDs g).Nodup := by
  unfold docGroupIDs
  exact List.Nodup.sublist (List.Sublist.map _ List.filter_sublist) docRules_nodup

theorem allIDs_nodup : allIDs.Nodup := allIDs_perm.nodup_iff.2 docRules_nodup

theorem mem_allIDs {id : Str} : id ∈ allIDs ↔ DocRule id := by
  rw [allIDs_perm.mem_iff, List.mem_map]
  exact Iff.rfl

theorem mem_of_filterMap {α : Type} {l : List α} {is : List Nat} {a : α}
    (h : a ∈ is.filterMap (l[·]?)) : a ∈ l := by
  obtain ⟨i, _, hi⟩ := List.mem_filterMap.1 h
  exact List.mem_of_getElem? hi

theorem google_sub (env : Env) : ∀ l ∈ googleLinters env, l ∈ allLinters env := by
  intro l h; rw [googleLinters_all] at h; exact mem_of_filterMap h

theorem uber1_sub (env : Env) : ∀ l ∈ uber1Linters env, l ∈ allLinters env := by
  intro l h; rw [uber1Linters_all] at h; exact mem_of_filterMap h

theorem uber2_sub (env : Env) : ∀ l ∈ uber2Linters env, l ∈ allLinters env := by
  intro l h; rw [uber2Linters_all] at h; exact mem_of_filterMap h

/-- What is known about the linters of a group. -/
structure GroupOK (env : Env) (g : Str) (ls : List Linter) : Prop where
  sub : ∀ l ∈ ls, l ∈ allLinters env
  ids : (ls.map (·.id)).Perm (docGroupIDs g)

theorem groupToLinters_ok (env : Env) {g : Str} {ls : List Linter}
    (h : GoMap.get? (groupToLinters env) g = some ls) : GroupOK env g ls := by
  unfold groupToLinters at h
  simp only [GoMap.get?_cons, GoMap.get?_nil] at h
  split at h
  · rename_i e; subst e; cases h
    exact ⟨google_sub env, by rw [googleLinters_ids]; exact googleIDs_perm⟩
  split at h
  · rename_i e; subst e; cases h
    exact ⟨uber1_sub env, by rw [uber1Linters_ids]; exact uber1IDs_perm⟩
  split at h
  · rename_i e; subst e; cases h
    exact ⟨uber2_sub env, by rw [uber2Linters_ids]; exact uber2IDs_perm⟩
  split at h
  · rename_i e; subst e; cases h
    exact ⟨fun _ h => (nomatch h), emptyIDs_perm⟩
  · cases h

theorem groupToLinters_none (env : Env) (g : Str) :
    GoMap.get? (groupToLinters env) g = none ↔ g ∉ docGroups := by
  rw [GoMap.get?_none]
  simp [groupToLinters, docGroups, eq_comm]

theorem uber1_ok (env : Env) : GroupOK env s%"uber1" (uber1Linters env) :=
  ⟨uber1_sub env, by rw [uber1Linters_ids]; exact uber1IDs_perm⟩

/-- The linters of the group asked for. -/
theorem groupLinters_spec (env : Env) (c : Settings.LintConfig) :
    (∃ g ls, AsksGroup c g ∧ g ∈ docGroups ∧ groupLinters env c = .ok ls ∧ GroupOK env g ls) ∨
    (∃ g e, AsksGroup c g ∧ g ∉ docGroups ∧ groupLinters env c = .error e) := by
  unfold groupLinters
  by_cases hg : c.group = []
  · simp only [hg, ne_eq, not_true_eq_false, if_false]
    cases hn : c.noDefault with
    | false => exact .inl ⟨_, _, .default hg hn, by decide, rfl, uber1_ok env⟩
    | true =>
      exact .inl ⟨_, _, .off hg hn, by decide, rfl, fun _ h => (nomatch h), emptyIDs_perm⟩
  · simp only [ne_eq, hg, not_false_eq_true, if_true]
    cases he : GoMap.get? (groupToLinters env) c.group with
    | some ls =>
      refine .inl ⟨_, _, .named hg, ?_, rfl, groupToLinters_ok env he⟩
      apply Classical.not_not.1
      intro h
      rw [(groupToLinters_none env _).2 h] at he
      cases he
    | none => exact .inr ⟨_, _, .named hg, (groupToLinters_none env _).1 he, rfl⟩

theorem _root_.Verif.Spec.AsksGroup.unique {c : Settings.LintConfig} {g g' : Str} (h : AsksGroup c g)
    (h' : AsksGroup c g') : g = g' := by
  cases h <;> cases h' <;> first | rfl | contradiction | (rename_i a b; simp_all)

/-! ## The map of linters -/

/-- Every entry is a registered linter under its own name, and names are distinct. -/
structure MapOK (env : Env) (m : GoMap Str Linter) : Prop where
  nodup : (m.map (·.1)).Nodup
  self : ∀ p ∈ m, p.2.id = p.1 ∧ p.2 ∈ allLinters env

theorem mem_set {m : GoMap Str Linter} {k : Str} {v : Linter} {p : Str × Linter}
    (h : p ∈ GoMap.set m k v) : p = (k, v) ∨ p ∈ m := by
  induction m with
  | nil => exact .inl (List.mem_singleton.1 h)
  | cons q m ih =>
    unfold GoMap.set at h
    split at h
    · rcases List.mem_cons.1 h with h | h
      · exact .inl h
      · exact .inr (List.mem_cons_of_mem _ h)
    · rcases List.mem_cons.1 h with h | h
      · exact .inr (h ▸ List.mem_cons_self)
      · rcases ih h with h | h
        · exact .inl h
        · exact .inr (List.mem_cons_of_mem _ h)

theorem MapOK.set {env : Env} {m : GoMap Str Linter} (h : MapOK env m) {l : Linter}
    (hl : l ∈ allLinters env) : MapOK env (GoMap.set m l.id l) where
  nodup := GoMap.set_keys_nodup h.nodup _ _
  self p hp := by
    rcases mem_set hp with rfl | hp
    · exact ⟨rfl, hl⟩
    · exact h.self p hp

theorem mem_keys_set {m : GoMap Str Linter} {k id : Str} {v : Linter} :
    id ∈ (GoMap.set m k v).map (·.1) ↔ id ∈ m.map (·.1) ∨ id = k := by
  rw [GoMap.set_keys]
  split
  · rename_i h
    exact ⟨.inl, fun h' => h'.elim (fun x => x) (fun e => e ▸ h)⟩
  · rw [List.mem_append, List.mem_singleton]

theorem foldl_group (env : Env) (ls : List Linter) (hs : ∀ l ∈ ls, l ∈ allLinters env)
    (m : GoMap Str Linter) (hm : MapOK env m) :
    MapOK env (ls.foldl (fun m l => GoMap.set m l.id l) m) ∧
    ∀ id, id ∈ (ls.foldl (fun m l => GoMap.set m l.id l) m).map (·.1) ↔
      id ∈ m.map (·.1) ∨ id ∈ ls.map (·.id) := by
  induction ls generalizing m with
  | nil => exact ⟨hm, fun id => by simp⟩
  | cons l ls ih =>
    rw [List.foldl_cons]
    obtain ⟨h1, h2⟩ := ih (fun x hx => hs x (List.mem_cons_of_mem _ hx)) _
      (hm.set (hs l List.mem_cons_self))
    refine ⟨h1, fun id => ?_⟩
    rw [h2, mem_keys_set, List.map_cons, List.mem_cons, or_assoc]

theorem foldl_include1 (env : Env) (l : Linter) (hl : l ∈ allLinters env) (ids : List Str)
    (m : GoMap Str Linter) (hm : MapOK env m) :
    MapOK env (ids.foldl (fun m id => if l.id = id then GoMap.set m id l else m) m) ∧
    ∀ id, id ∈ (ids.foldl (fun m id => if l.id = id then GoMap.set m id l else m) m).map (·.1) ↔
      id ∈ m.map (·.1) ∨ (id = l.id ∧ id ∈ ids) := by
  induction ids generalizing m with
  | nil => exact ⟨hm, fun id => by simp⟩
  | cons x ids ih =>
    rw [List.foldl_cons]
    by_cases hx : l.id = x
    · rw [if_pos hx]
      subst hx
      obtain ⟨h1, h2⟩ := ih _ (hm.set hl)
      refine ⟨h1, fun id => ?_⟩
      rw [h2, mem_keys_set, List.mem_cons]
      constructor
      · rintro ((h | h) | ⟨h, h'⟩)
        · exact .inl h
        · exact .inr ⟨h, .inl h⟩
        · exact .inr ⟨h, .inr h'⟩
      · rintro (h | ⟨h, _⟩)
        · exact .inl (.inl h)
        · exact .inl (.inr h)
    · rw [if_neg hx]
      obtain ⟨h1, h2⟩ := ih _ hm
      refine ⟨h1, fun id => ?_⟩
      rw [h2, List.mem_cons]
      constructor
      · rintro (h | ⟨h, h'⟩)
        · exact .inl h
        · exact .inr ⟨h, .inr h'⟩
      · rintro (h | ⟨h, h' | h'⟩)
        · exact .inl h
        · exact absurd (h.symm.trans h') hx
        · exact .inr ⟨h, h'⟩

theorem foldl_include (env : Env) (ids : List Str) (ls : List Linter)
    (hs : ∀ l ∈ ls, l ∈ allLinters env) (m : GoMap Str Linter) (hm : MapOK env m) :
    MapOK env (ls.foldl (fun m l => ids.foldl (fun m id =>
      if l.id = id then GoMap.set m id l else m) m) m) ∧
    ∀ id, id ∈ (ls.foldl (fun m l => ids.foldl (fun m id =>
      if l.id = id then GoMap.set m id l else m) m) m).map (·.1) ↔
      id ∈ m.map (·.1) ∨ (id ∈ ls.map (·.id) ∧ id ∈ ids) := by
  induction ls generalizing m with
  | nil => exact ⟨hm, fun id => by simp⟩
  | cons l ls ih =>
    rw [List.foldl_cons]
    obtain ⟨h1, h2⟩ := foldl_include1 env l (hs l List.mem_cons_self) ids m hm
    obtain ⟨h3, h4⟩ := ih (fun x hx => hs x (List.mem_cons_of_mem _ hx)) _ h1
    refine ⟨h3, fun id => ?_⟩
    rw [h4, h2, List.map_cons, List.mem_cons, or_assoc, ← or_and_right]

theorem foldl_exclude (env : Env) (ids : List Str) (m : GoMap Str Linter) (hm : MapOK env m) :
    MapOK env (ids.foldl (fun m id => GoMap.delete m id) m) ∧
    ∀ id, id ∈ (ids.foldl (fun m id => GoMap.delete m id) m).map (·.1) ↔
      id ∈ m.map (·.1) ∧ id ∉ ids := by
  induction ids generalizing m with
  | nil => exact ⟨hm, fun id => by simp⟩
  | cons x ids ih =>
    rw [List.foldl_cons]
    have hd : MapOK env (GoMap.delete m x) :=
      ⟨List.Nodup.sublist (List.Sublist.map _ List.filter_sublist) hm.nodup,
        fun p hp => hm.self p (List.mem_filter.1 hp).1⟩
    obtain ⟨h1, h2⟩ := ih _ hd
    refine ⟨h1, fun id => ?_⟩
    rw [h2, List.mem_cons, not_or]
    simp only [List.mem_map, GoMap.delete, List.mem_filter, decide_eq_true_eq]
    constructor
    · rintro ⟨⟨p, ⟨h, hp⟩, rfl⟩, h'⟩; exact ⟨⟨p, h, rfl⟩, hp, h'⟩
    · rintro ⟨⟨p, h, rfl⟩, hp, h'⟩; exact ⟨⟨p, ⟨h, hp⟩, rfl⟩, h'⟩

theorem linterMap_spec (env : Env) (c : Settings.LintConfig) (ls : List Linter)
    (hs : ∀ l ∈ ls, l ∈ allLinters env) :
    MapOK env (linterMap env c ls) ∧
    ∀ id, id ∈ (linterMap env c ls).map (·.1) ↔
      (id ∈ ls.map (·.id) ∨ (DocRule id ∧ id ∈ c.includeIDs)) ∧ id ∉ c.excludeIDs := by
  have h0 : MapOK env [] := ⟨List.nodup_nil, fun _ h => nomatch h⟩
  obtain ⟨h1, k1⟩ := foldl_group env ls hs [] h0
  obtain ⟨h2, k2⟩ := foldl_include env c.includeIDs (allLinters env) (fun _ h => h) _ h1
  obtain ⟨h3, k3⟩ := foldl_exclude env c.excludeIDs _ h2
  refine ⟨h3, fun id => ?_⟩
  show id ∈ List.map _ (List.foldl _ _ _) ↔ _
  rw [k3, k2, k1, allLinters_ids, mem_allIDs]
  simp

/-! ## `getLinters` -/

theorem checkLintID_none (env : Env) (id : Str) : checkLintID env id = none ↔ DocRule id := by
  unfold checkLintID
  rw [allLinters_ids, ← mem_allIDs]
  split
  · rename_i h; simp [h]
  · rename_i h; simp [h]

theorem findSome_none (env : Env) (ids : List Str) :
    ids.findSome? (checkLintID env) = none ↔ ∀ id ∈ ids, DocRule id := by
  rw [List.findSome?_eq_none_iff]
  simp only [checkLintID_none]

theorem map_id_of_self {env : Env} {m : GoMap Str Linter} (h : MapOK env m) :
    (m.map (·.2)).map (·.id) = m.map (·.1) := by
  rw [List.map_map]
  exact List.map_congr_left fun p hp => (h.self p hp).1

/-- The result of `getLinters` in all cases. -/
theorem getLinters_spec (env : Env) (c : Settings.LintConfig) :
    (KnownNames c ∧ ∃ ls, getLinters env c = .ok ls ∧ (∀ l ∈ ls, l ∈ allLinters env) ∧
      (ls.map (·.id)).Nodup ∧ ∀ id, id ∈ ls.map (·.id) ↔ AsksRule c id) ∨
    (¬ KnownNames c ∧ ∃ e, getLinters env c = .error e) := by
  unfold getLinters
  rcases groupLinters_spec env c with ⟨g, ls, hg, hd, he, hok⟩ | ⟨g, e, hg, hd, he⟩
  · rw [he]
    dsimp only
    cases h1 : c.includeIDs.findSome? (checkLintID env) with
    | some e =>
      refine .inr ⟨fun k => ?_, e, rfl⟩
      rw [(findSome_none env _).2 k.add] at h1; cases h1
    | none =>
    cases h2 : c.excludeIDs.findSome? (checkLintID env) with
    | some e =>
      refine .inr ⟨fun k => ?_, e, rfl⟩
      rw [(findSome_none env _).2 k.remove] at h2; cases h2
    | none =>
    dsimp only
    cases h3 : (env.order.ord [s%"GetLinters", s%"ignores"]
        (GoMap.keys c.ignoreIDToFilePaths)).findSome? (checkLintID env) with
    | some e =>
      refine .inr ⟨fun k => ?_, e, rfl⟩
      rw [(findSome_none env _).2] at h3
      · cases h3
      · intro id hid
        rw [(env.order.perm _ _).mem_iff] at hid
        obtain ⟨p, hp, rfl⟩ := List.mem_map.1 hid
        exact k.ignores p hp
    | none =>
    dsimp only
    have hk : KnownNames c := by
      refine ⟨fun g' hg' => hg.unique hg' ▸ hd, (findSome_none env _).1 h1, (findSome_none env _).1 h2, ?_⟩
      intro p hp
      apply (findSome_none env _).1 h3
      rw [(env.order.perm _ _).mem_iff]
      exact List.mem_map_of_mem hp
    have hin : ∀ id, id ∈ ls.map (·.id) ↔ ∃ g, AsksGroup c g ∧ DocInGroup g id := by
      intro id
      rw [hok.ids.mem_iff, mem_docGroupIDs]
      exact ⟨fun h => ⟨g, hg, h⟩, fun ⟨g', hg', h⟩ => hg.unique hg' ▸ h⟩
    refine .inl ⟨hk, ?_⟩
    split
    · rename_i hl
      simp only [Bool.and_eq_true, decide_eq_true_eq, List.length_eq_zero_iff] at hl
      refine ⟨ls, rfl, hok.sub, hok.ids.nodup_iff.2 (docGroupIDs_nodup g), fun id => ?_⟩
      rw [AsksRule, ← hin, hl.1, hl.2]
      simp
    · obtain ⟨hm, hids⟩ := linterMap_spec env c ls hok.sub
      have hp : ((env.order.ord [s%"GetLinters", s%"linters"] (linterMap env c ls)).map (·.2)).Perm
          ((linterMap env c ls).map (·.2)) := (env.order.perm _ _).map _
      refine ⟨_, rfl, fun l hl => ?_, ?_, fun id => ?_⟩
      · rw [hp.mem_iff] at hl
        obtain ⟨p, hpm, rfl⟩ := List.mem_map.1 hl
        exact (hm.self p hpm).2
      · rw [(hp.map _).nodup_iff, map_id_of_self hm]
        exact hm.nodup
      · rw [(hp.map _).mem_iff, map_id_of_self hm, hids, AsksRule, hin]
        constructor
        · rintro ⟨h | ⟨_, h⟩, h'⟩
          · exact ⟨.inl h, h'⟩
          · exact ⟨.inr h, h'⟩
        · rintro ⟨h | h, h'⟩
          · exact ⟨.inl h, h'⟩
          · exact ⟨.inr ⟨hk.add id h, h⟩, h'⟩
  · rw [he]
    exact .inr ⟨fun k => hd (k.group g hg), e, rfl⟩

end Verif.Lint
