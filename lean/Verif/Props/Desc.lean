import Verif.Proof.Desc

/-!
# Descriptor sets: C10 and C11
-/

namespace Verif.Props

open Verif Descriptor Spec Verif.Desc Proof.Desc

/-! ## C10 -/

/-- C10: merging succeeds exactly when every file has a name and equal names mean equal
files. -/
theorem C10_succeeds_iff (s : SortSlice) (sum : FileDesc → Except Err Str)
    (sets : List (Option (List (Option FileDesc)))) (hs : FaithfulOn sum (InSets sets)) :
    (∃ r, mergeFileDescriptorSets s sum sets = .ok r) ↔ Mergeable sets :=
  merge_ok_iff s sets hs

/-- C10: the result holds exactly the files of the input, each once, in the order of
their names. -/
theorem C10_union (s : SortSlice) (sum : FileDesc → Except Err Str)
    (sets : List (Option (List (Option FileDesc)))) (hs : FaithfulOn sum (InSets sets)) (r : FileSet)
    (h : mergeFileDescriptorSets s sum sets = .ok r) :
    (r.Pairwise fun a b => Str.lt a.name b.name = true) ∧ ∀ f, f ∈ r ↔ InSets sets f := by
  obtain ⟨h1, h2, h3⟩ := merge_result s sets hs h
  refine ⟨?_, h3⟩
  rw [List.Nodup, List.pairwise_map] at h1
  refine (h1.and h2).imp fun ⟨hne, hlt⟩ => ?_
  rcases Str.lt_trichotomy _ _ with h | h | h
  · exact h
  · exact absurd h hne
  · rw [h] at hlt; cases hlt

/-- C10: the outcome depends only on which files occur (nil entries aside), not on the
order of the sets, the order of files in a set, repetitions, or the distribution of
the files over the sets; nor on how equal elements are sorted. -/
theorem C10_order_independent (s s' : SortSlice) (sum : FileDesc → Except Err Str)
    (sets sets' : List (Option (List (Option FileDesc)))) (hs : FaithfulOn sum (InSets sets)) (hn : NoNil sets ↔ NoNil sets')
    (h : ∀ f, InSets sets f ↔ InSets sets' f) :
    (mergeFileDescriptorSets s sum sets).toOption = (mergeFileDescriptorSets s' sum sets').toOption := by
  have hs' : FaithfulOn sum (InSets sets') :=
    ⟨fun f hf => hs.total f ((h f).2 hf),
      fun f g x hf hg => hs.injective f g x ((h f).2 hf) ((h g).2 hg)⟩
  have hm : Mergeable sets ↔ Mergeable sets' := by
    unfold Mergeable
    simp only [hn, h]
  cases hr : mergeFileDescriptorSets s sum sets with
  | error e =>
    cases hr' : mergeFileDescriptorSets s' sum sets' with
    | error e' => rfl
    | ok r' =>
      obtain ⟨r, h'⟩ := (merge_ok_iff s sets hs).2 (hm.2 ((merge_ok_iff s' sets' hs').1 ⟨r', hr'⟩))
      rw [hr] at h'; cases h'
  | ok r =>
    cases hr' : mergeFileDescriptorSets s' sum sets' with
    | error e' =>
      obtain ⟨r, h'⟩ := (merge_ok_iff s' sets' hs').2 (hm.1 ((merge_ok_iff s sets hs).1 ⟨r, hr⟩))
      rw [hr'] at h'; cases h'
    | ok r' =>
      obtain ⟨h1, h2, h3⟩ := merge_result s sets hs hr
      obtain ⟨h1', h2', h3'⟩ := merge_result s' sets' hs' hr'
      have hp : r.Perm r' := by
        refine (List.perm_ext_iff_of_nodup ?_ ?_).2 fun f => ?_
        · exact List.Pairwise.of_map _ (fun _ _ hne he => hne (congrArg _ he)) h1
        · exact List.Pairwise.of_map _ (fun _ _ hne he => hne (congrArg _ he)) h1'
        · rw [h3, h3', h]
      have : r = r' := by
        refine sorted_perm_eq (le := fun a b : FileDesc => !Str.lt b.name a.name) ?_
          (h2.imp fun h => by simpa using h) (h2'.imp fun h => by simpa using h) hp
        intro a b ha hb hab hba
        simp only [Bool.not_eq_true'] at hab hba
        refine Verif.eq_of_key_eq (key := fun f : FileDesc => f.name) h1 ha hb ?_
        rcases Str.lt_trichotomy a.name b.name with h | h | h
        · rw [h] at hba; cases hba
        · exact h
        · rw [h] at hab; cases hab
      rw [this]

/-- A file with the given name and options. -/
def exampleFile (name rest : Str) : FileDesc := ⟨name, s%"p", [], [], [], [], rest⟩

/-- Two sets sharing the file "a". -/
def exampleSets : List (Option (List (Option FileDesc))) :=
  [some [some (exampleFile (s%"b") []), some (exampleFile (s%"a") [])],
   some [some (exampleFile (s%"a") [])]]

theorem exampleSets_iff (f : FileDesc) :
    InSets exampleSets f ↔ f = exampleFile (s%"b") [] ∨ f = exampleFile (s%"a") [] := by
  constructor
  · rintro ⟨set, hs, hf⟩
    simp only [exampleSets, List.mem_cons, Option.some.injEq, List.not_mem_nil, or_false] at hs
    rcases hs with rfl | rfl
    · simpa using hf
    · exact .inr (by simpa using hf)
  · rintro (rfl | rfl)
    · exact ⟨_, List.mem_cons_self, by simp⟩
    · exact ⟨_, List.mem_cons_self, by simp⟩

example : FaithfulOn (fun f => .ok (f.name ++ s%" " ++ f.rest)) (InSets exampleSets) := by
  refine ⟨fun f _ => ⟨_, rfl⟩, ?_⟩
  intro f g x hf hg hx hx'
  cases hx
  rw [exampleSets_iff] at hf hg
  rcases hf with rfl | rfl <;> rcases hg with rfl | rfl
  · rfl
  · cases hx'
  · cases hx'
  · rfl
example : mergeFileDescriptorSets SortSlice.stable (fun f => .ok (f.name ++ s%" " ++ f.rest)) exampleSets =
    .ok [exampleFile (s%"a") [], exampleFile (s%"b") []] := by rfl
example : mergeFileDescriptorSets SortSlice.stable (fun f => .ok (f.name ++ s%" " ++ f.rest))
    [some [some (exampleFile (s%"a") []), some (exampleFile (s%"a") (s%"x"))]] =
    .error (s%"mismatched sums for file a") := by rfl

/-! ## C11 -/

/-- C11: sorting a well-formed set puts the target last and keeps the order of the
other files. -/
theorem C11_moves_target (before after : FileSet) (target : FileDesc)
    (hne : ∀ f ∈ before ++ target :: after, f.name ≠ [])
    (hnd : ((before ++ target :: after).map (·.name)).Nodup) :
    sortFileDescriptorSet (before ++ target :: after) target = .ok (before ++ after ++ [target]) := by
  rw [sort_ok_iff]
  refine ⟨hne, hnd, ⟨target, by simp, rfl⟩, ?_⟩
  congr 1
  rw [List.map_append, List.map_cons, List.nodup_append, List.nodup_cons] at hnd
  obtain ⟨_, ⟨h2, _⟩, h3⟩ := hnd
  rw [List.filter_append, List.filter_cons_of_neg (by simp)]
  congr 1
  · symm
    rw [List.filter_eq_self]
    intro f hf
    have := h3 f.name (List.mem_map_of_mem hf) target.name (by simp)
    simpa using this
  · symm
    rw [List.filter_eq_self]
    intro f hf
    simp only [decide_eq_true_eq]
    intro he
    exact h2 (he ▸ List.mem_map_of_mem (f := (·.name)) hf)

/-- C11: sorting fails exactly on unnamed files, duplicate names or a missing target. -/
theorem C11_fails_iff (set : FileSet) (target : FileDesc) :
    (∃ e, sortFileDescriptorSet set target = .error e) ↔
      (∃ f ∈ set, f.name = []) ∨ ¬ (set.map (·.name)).Nodup ∨ (∀ f ∈ set, f.name ≠ target.name) := by
  constructor
  · rintro ⟨e, he⟩
    refine Classical.byContradiction fun hno => ?_
    simp only [not_or, Classical.not_not, not_exists, not_and] at hno
    obtain ⟨h1, h2, h3⟩ := hno
    have h3 : ∃ f ∈ set, f.name = target.name := by
      refine Classical.byContradiction fun hx => h3 fun f hf hn => hx ⟨f, hf, hn⟩
    have := (sort_ok_iff (set := set) (target := target)).2 ⟨h1, h2, h3, rfl⟩
    rw [he] at this; cases this
  · intro h
    cases hr : sortFileDescriptorSet set target with
    | error e => exact ⟨e, rfl⟩
    | ok r =>
      obtain ⟨h1, h2, ⟨f, hf, hn⟩, _⟩ := sort_ok_iff.1 hr
      rcases h with ⟨f, hf, hn⟩ | h | h
      · exact absurd hn (h1 f hf)
      · exact absurd h2 h
      · exact absurd hn (h f hf)

example : sortFileDescriptorSet
    [exampleFile (s%"b") [], exampleFile (s%"a") [], exampleFile (s%"c") []] (exampleFile (s%"a") []) =
    .ok [exampleFile (s%"b") [], exampleFile (s%"c") [], exampleFile (s%"a") []] := by rfl
example : sortFileDescriptorSet [exampleFile (s%"b") []] (exampleFile (s%"a") []) =
    .error (s%"no FileDescriptorProto named a in FileDescriptorSet") := by rfl

end Verif.Props
