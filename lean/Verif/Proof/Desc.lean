import Verif.Model.Desc
import Verif.Spec.Descriptors
import Verif.Proof.Map
import Verif.Proof.Keyed

/-! # Merging and sorting descriptor sets -/

namespace Verif.Proof.Desc

open Verif Descriptor Verif.Desc Spec

variable {sum : FileDesc → Except Err Str} {P : FileDesc → Prop}

theorem mergeFiles_append (as bs : List (Option FileDesc)) (st : MergeState) :
    mergeFiles sum (as ++ bs) st = (mergeFiles sum as st).bind (mergeFiles sum bs) := by
  induction as generalizing st with
  | nil => rfl
  | cons a as ih =>
    cases a with
    | none => rfl
    | some f =>
      rw [List.cons_append, mergeFiles, mergeFiles]
      split
      · rfl
      · cases sum f with
        | error e => rfl
        | ok x =>
          cases st.nameToSum.get? f.name with
          | none => exact ih _
          | some y =>
            dsimp only
            split
            · rfl
            · exact ih _

theorem mergeSets_eq {sets : List (Option (List (Option FileDesc)))} (h : none ∉ sets) (st : MergeState) :
    mergeSets sum sets st = mergeFiles sum (sets.filterMap id).flatten st := by
  induction sets generalizing st with
  | nil => rfl
  | cons s sets ih =>
    cases s with
    | none => simp at h
    | some fs =>
      rw [mergeSets, List.filterMap_cons]
      show _ = mergeFiles sum (fs ++ (sets.filterMap id).flatten) st
      rw [mergeFiles_append]
      cases mergeFiles sum fs st with
      | error e => rfl
      | ok st' => exact ih (by simpa using fun hh => h (List.mem_cons_of_mem _ hh)) st'

theorem mergeSets_none {sets : List (Option (List (Option FileDesc)))} (h : none ∈ sets) (st : MergeState) :
    ∃ e, mergeSets sum sets st = .error e := by
  induction sets generalizing st with
  | nil => cases h
  | cons s sets ih =>
    cases s with
    | none => exact ⟨_, rfl⟩
    | some fs =>
      rw [mergeSets]
      cases mergeFiles sum fs st with
      | error e => exact ⟨_, rfl⟩
      | ok st' => exact ih (by simpa using h) st'

/-- The invariant of the merge loop. -/
structure Inv (sum : FileDesc → Except Err Str) (st : MergeState) : Prop where
  names : (st.file.map (·.name)).Nodup
  sums : ∀ n x, st.nameToSum.get? n = some x ↔ ∃ f ∈ st.file, f.name = n ∧ sum f = .ok x

theorem inv_nil : Inv sum ⟨[], []⟩ := ⟨by simp, by simp [GoMap.get?_nil]⟩

theorem inv_add {st : MergeState} (h : Inv sum st) {f : FileDesc} {x : Str} (hx : sum f = .ok x)
    (hn : st.nameToSum.get? f.name = none) (ht : ∀ g ∈ st.file, ∃ x, sum g = .ok x) :
    Inv sum ⟨st.nameToSum.set f.name x, st.file ++ [f]⟩ := by
  have hnew : ∀ g ∈ st.file, g.name ≠ f.name := by
    intro g hg he
    obtain ⟨y, hy⟩ := ht g hg
    rw [(h.sums f.name y).2 ⟨g, hg, he, hy⟩] at hn
    cases hn
  refine ⟨?_, ?_⟩
  · rw [List.map_append, List.nodup_append]
    refine ⟨h.names, by simp, ?_⟩
    rintro a ha b hb rfl
    obtain ⟨g, hg, rfl⟩ := List.mem_map.1 ha
    simp at hb
    exact hnew g hg hb
  · intro n y
    dsimp only
    rw [GoMap.get?_set]
    split
    · rename_i he
      constructor
      · intro hy
        cases hy
        exact ⟨f, by simp, he, hx⟩
      · rintro ⟨g, hg, hgn, hgy⟩
        rcases List.mem_append.1 hg with hg | hg
        · exact absurd (hgn.trans he.symm) (hnew g hg)
        · rw [List.mem_singleton] at hg
          subst hg
          rw [hx] at hgy
          cases hgy; rfl
    · rename_i he
      rw [h.sums]
      constructor
      · rintro ⟨g, hg, h⟩
        exact ⟨g, by simp [hg], h⟩
      · rintro ⟨g, hg, hgn, hgy⟩
        rcases List.mem_append.1 hg with hg | hg
        · exact ⟨g, hg, hgn, hgy⟩
        · rw [List.mem_singleton] at hg
          subst hg
          exact absurd hgn he

theorem hP_add {f : FileDesc} {fs : List (Option FileDesc)} {l : List FileDesc}
    (hP : ∀ g, g ∈ l ∨ some g ∈ some f :: fs → P g) : ∀ g, g ∈ l ++ [f] ∨ some g ∈ fs → P g := by
  intro g hg
  simp only [List.mem_append, List.mem_singleton] at hg
  rcases hg with (h | rfl) | h
  · exact hP g (.inl h)
  · exact hP g (.inr (by simp))
  · exact hP g (.inr (by simp [h]))

theorem hP_tail {f : FileDesc} {fs : List (Option FileDesc)} {l : List FileDesc}
    (hP : ∀ g, g ∈ l ∨ some g ∈ some f :: fs → P g) : ∀ g, g ∈ l ∨ some g ∈ fs → P g :=
  fun g hg => hP g (hg.imp id fun h => by simp [h])

theorem mergeFiles_sound (hs : FaithfulOn sum P) {fs : List (Option FileDesc)} {st st' : MergeState}
    (hi : Inv sum st) (hP : ∀ f, f ∈ st.file ∨ some f ∈ fs → P f) (h : mergeFiles sum fs st = .ok st') :
    Inv sum st' ∧ none ∉ fs ∧ (∀ f, some f ∈ fs → f.name ≠ []) ∧
      (∀ f, f ∈ st'.file ↔ f ∈ st.file ∨ some f ∈ fs) := by
  induction fs generalizing st with
  | nil => cases h; exact ⟨hi, by simp, by simp, by simp⟩
  | cons a fs ih =>
    cases a with
    | none => cases h
    | some f =>
      rw [mergeFiles] at h
      split at h
      · cases h
      · rename_i hne
        obtain ⟨x, hx⟩ := hs.total f (hP f (.inr (by simp)))
        rw [hx] at h
        dsimp only at h
        cases hg : st.nameToSum.get? f.name with
        | none =>
          rw [hg] at h
          obtain ⟨h1, h2, h3, h4⟩ := ih (inv_add hi hx hg fun g hg => hs.total g (hP g (.inl hg))) (hP_add hP) h
          refine ⟨h1, by simpa using h2, ?_, ?_⟩
          · intro g hgm
            rcases List.mem_cons.1 hgm with hgm | hgm
            · cases hgm; exact hne
            · exact h3 g hgm
          · intro g
            rw [h4]
            simp only [List.mem_append, List.mem_cons, Option.some.injEq, List.not_mem_nil, or_false,
              or_assoc]
        | some y =>
          rw [hg] at h
          dsimp only at h
          split at h
          · cases h
          · rename_i hxy
            have hxy : y = x := Classical.not_not.1 hxy
            obtain ⟨h1, h2, h3, h4⟩ := ih hi (hP_tail hP) h
            refine ⟨h1, by simpa using h2, ?_, ?_⟩
            · intro g hgm
              rcases List.mem_cons.1 hgm with hgm | hgm
              · cases hgm; exact hne
              · exact h3 g hgm
            · intro g
              rw [h4, List.mem_cons]
              constructor
              · rintro (h | h)
                · exact .inl h
                · exact .inr (.inr h)
              · rintro (h | h | h)
                · exact .inl h
                · cases h
                  obtain ⟨k, hk, _, hky⟩ := (hi.sums _ _).1 hg
                  rw [hs.injective f k x (hP f (.inr (by simp))) (hP k (.inl hk)) hx (hxy ▸ hky)]
                  exact .inl hk
                · exact .inr h

theorem mergeFiles_complete (hs : FaithfulOn sum P) {fs : List (Option FileDesc)} {st : MergeState}
    (hi : Inv sum st) (hP : ∀ f, f ∈ st.file ∨ some f ∈ fs → P f) (hnil : none ∉ fs) (hne : ∀ f, some f ∈ fs → f.name ≠ [])
    (heq : ∀ f g, (f ∈ st.file ∨ some f ∈ fs) → (g ∈ st.file ∨ some g ∈ fs) → f.name = g.name → f = g) :
    ∃ st', mergeFiles sum fs st = .ok st' := by
  induction fs generalizing st with
  | nil => exact ⟨_, rfl⟩
  | cons a fs ih =>
    cases a with
    | none => simp at hnil
    | some f =>
      rw [mergeFiles, if_neg (hne f (by simp))]
      obtain ⟨x, hx⟩ := hs.total f (hP f (.inr (by simp)))
      rw [hx]
      dsimp only
      cases hg : st.nameToSum.get? f.name with
      | none =>
        refine ih (inv_add hi hx hg fun g hg => hs.total g (hP g (.inl hg))) (hP_add hP) (by simpa using hnil) (fun g hg => hne g (by simp [hg])) ?_
        intro g k hgm hkm
        refine heq g k ?_ ?_
        · simp only [List.mem_append, List.mem_singleton] at hgm
          rcases hgm with (h | rfl) | h
          · exact .inl h
          · exact .inr (by simp)
          · exact .inr (by simp [h])
        · simp only [List.mem_append, List.mem_singleton] at hkm
          rcases hkm with (h | rfl) | h
          · exact .inl h
          · exact .inr (by simp)
          · exact .inr (by simp [h])
      | some y =>
        dsimp only
        obtain ⟨k, hk, hkn, hky⟩ := (hi.sums _ _).1 hg
        have hfk : k = f := heq k f (.inl hk) (.inr (by simp)) hkn
        rw [hfk, hx] at hky
        cases hky
        rw [if_neg (by simp)]
        refine ih hi (hP_tail hP) (by simpa using hnil) (fun g hg => hne g (by simp [hg])) ?_
        intro g k hgm hkm
        refine heq g k ?_ ?_
        · exact hgm.imp id fun h => by simp [h]
        · exact hkm.imp id fun h => by simp [h]

theorem mem_flat {sets : List (Option (List (Option FileDesc)))} {x : Option FileDesc} :
    x ∈ (sets.filterMap id).flatten ↔ ∃ set, some set ∈ sets ∧ x ∈ set := by
  simp [List.mem_flatten]

theorem hP_init (sets : List (Option (List (Option FileDesc)))) :
    ∀ f, f ∈ ([] : List FileDesc) ∨ some f ∈ (sets.filterMap id).flatten → InSets sets f := by
  rintro f (h | h)
  · cases h
  · exact mem_flat.1 h

theorem merge_ok_iff (s : SortSlice)
    (sets : List (Option (List (Option FileDesc)))) (hs : FaithfulOn sum (InSets sets)) :
    (∃ r, mergeFileDescriptorSets s sum sets = .ok r) ↔ Mergeable sets := by
  unfold mergeFileDescriptorSets
  by_cases hl : sets.length = 0
  · rw [if_pos hl]
    have : sets = [] := List.eq_nil_of_length_eq_zero hl
    subst this
    exact ⟨fun _ => ⟨⟨by simp, by simp⟩, by simp [InSets], by simp [InSets]⟩, fun _ => ⟨_, rfl⟩⟩
  · rw [if_neg hl]
    by_cases hn : none ∈ sets
    · obtain ⟨e, he⟩ := mergeSets_none (sum := sum) hn ⟨[], []⟩
      rw [he]
      constructor
      · rintro ⟨r, hr⟩; cases hr
      · exact fun h => absurd hn h.1.1
    · rw [mergeSets_eq hn]
      constructor
      · rintro ⟨r, hr⟩
        split at hr
        · cases hr
        · rename_i st hst
          obtain ⟨h1, h2, h3, h4⟩ := mergeFiles_sound hs inv_nil (hP_init sets) hst
          refine ⟨⟨hn, ?_⟩, ?_, ?_⟩
          · intro set hset hh
            exact h2 (mem_flat.2 ⟨set, hset, hh⟩)
          · rintro f ⟨set, hset, hf⟩
            exact h3 f (mem_flat.2 ⟨set, hset, hf⟩)
          · rintro f g ⟨set, hset, hf⟩ ⟨set', hset', hg⟩ he
            exact eq_of_key_eq h1.names ((h4 f).2 (.inr (mem_flat.2 ⟨set, hset, hf⟩)))
              ((h4 g).2 (.inr (mem_flat.2 ⟨set', hset', hg⟩))) he
      · rintro ⟨⟨_, h2⟩, h3, h4⟩
        obtain ⟨st, hst⟩ := mergeFiles_complete hs (inv_nil (sum := sum))
          (hP_init sets)
          (fun h => by
            obtain ⟨set, hset, hh⟩ := mem_flat.1 h
            exact h2 set hset hh)
          (fun f h => h3 f (mem_flat.1 h))
          (fun f g hf hg he => by
            simp only [List.not_mem_nil, false_or] at hf hg
            exact h4 f g (mem_flat.1 hf) (mem_flat.1 hg) he)
        rw [hst]
        exact ⟨_, rfl⟩

theorem merge_result (s : SortSlice)
    (sets : List (Option (List (Option FileDesc)))) (hs : FaithfulOn sum (InSets sets)) {r : FileSet}
    (h : mergeFileDescriptorSets s sum sets = .ok r) :
    (r.map (·.name)).Nodup ∧ (r.Pairwise fun a b => Str.lt b.name a.name = false) ∧
      ∀ f, f ∈ r ↔ InSets sets f := by
  unfold mergeFileDescriptorSets at h
  split at h
  · rename_i hl
    have : sets = [] := List.eq_nil_of_length_eq_zero hl
    subst this
    cases h
    exact ⟨by simp, by simp, by simp [InSets]⟩
  · split at h
    · cases h
    · rename_i st hst
      cases h
      by_cases hn : none ∈ sets
      · obtain ⟨e, he⟩ := mergeSets_none (sum := sum) hn ⟨[], []⟩
        rw [he] at hst; cases hst
      · rw [mergeSets_eq hn] at hst
        obtain ⟨h1, h2, h3, h4⟩ := mergeFiles_sound hs inv_nil (hP_init sets) hst
        have hp := s.perm (fun a b : FileDesc => Str.lt a.name b.name) st.file
        refine ⟨(hp.map _).nodup_iff.2 h1.names, s.sorted _ _ (SWO.str.on _), ?_⟩
        intro f
        rw [hp.mem_iff, h4]
        simp only [List.not_mem_nil, false_or]
        exact mem_flat

/-! ## Sorting -/

theorem checkNames_ok {fs : List FileDesc} {names r : List Str} (h : checkNames fs names = .ok r) :
    (∀ f ∈ fs, f.name ≠ []) ∧ (fs.map (·.name)).Nodup ∧ (∀ f ∈ fs, f.name ∉ names) ∧
      ∀ n, n ∈ r ↔ n ∈ names ∨ ∃ f ∈ fs, f.name = n := by
  induction fs generalizing names with
  | nil => cases h; simp
  | cons f fs ih =>
    rw [checkNames] at h
    split at h
    · cases h
    · rename_i hne
      split at h
      · cases h
      · rename_i hnm
        obtain ⟨h1, h2, h3, h4⟩ := ih h
        refine ⟨?_, ?_, ?_, ?_⟩
        · simp only [List.mem_cons, forall_eq_or_imp]
          exact ⟨hne, h1⟩
        · rw [List.map_cons, List.nodup_cons]
          refine ⟨?_, h2⟩
          intro hm
          obtain ⟨g, hg, he⟩ := List.mem_map.1 hm
          exact h3 g hg (mem_setInsert.2 (.inr he))
        · simp only [List.mem_cons, forall_eq_or_imp]
          exact ⟨hnm, fun g hg hm => h3 g hg (mem_setInsert.2 (.inl hm))⟩
        · intro n
          rw [h4, mem_setInsert]
          simp only [List.mem_cons, exists_eq_or_imp, or_assoc]
          constructor
          · rintro (h | h | h)
            · exact .inl h
            · exact .inr (.inl h.symm)
            · exact .inr (.inr h)
          · rintro (h | h | h)
            · exact .inl h
            · exact .inr (.inl h.symm)
            · exact .inr (.inr h)

theorem checkNames_complete {fs : List FileDesc} {names : List Str} (h1 : ∀ f ∈ fs, f.name ≠ [])
    (h2 : (fs.map (·.name)).Nodup) (h3 : ∀ f ∈ fs, f.name ∉ names) :
    ∃ r, checkNames fs names = .ok r := by
  induction fs generalizing names with
  | nil => exact ⟨_, rfl⟩
  | cons f fs ih =>
    rw [checkNames, if_neg (h1 f (by simp)), if_neg (h3 f (by simp))]
    rw [List.map_cons, List.nodup_cons] at h2
    refine ih (fun g hg => h1 g (by simp [hg])) h2.2 ?_
    intro g hg hm
    rcases mem_setInsert.1 hm with hm | hm
    · exact h3 g (by simp [hg]) hm
    · exact h2.1 (hm ▸ List.mem_map_of_mem (f := (·.name)) hg)

theorem sort_ok_iff {set r : FileSet} {target : FileDesc} :
    sortFileDescriptorSet set target = .ok r ↔
      (∀ f ∈ set, f.name ≠ []) ∧ (set.map (·.name)).Nodup ∧ (∃ f ∈ set, f.name = target.name) ∧
      r = (set.filter fun f => decide (f.name ≠ target.name)) ++ [target] := by
  unfold sortFileDescriptorSet
  constructor
  · intro h
    split at h
    · cases h
    · rename_i names hn
      obtain ⟨h1, h2, _, h4⟩ := checkNames_ok hn
      split at h
      · rename_i hm
        cases h
        refine ⟨h1, h2, ?_, rfl⟩
        simpa using (h4 _).1 hm
      · cases h
  · rintro ⟨h1, h2, h3, rfl⟩
    obtain ⟨names, hn⟩ := checkNames_complete (names := []) h1 h2 (by simp)
    rw [hn]
    dsimp only
    rw [if_pos]
    exact ((checkNames_ok hn).2.2.2 _).2 (.inr h3)

end Verif.Proof.Desc
