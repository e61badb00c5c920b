import Verif.Proof.ExecPrint
import Verif.Proof.Keyed
import Verif.Proof.Split
import Verif.Proof.Sort
import Verif.Props.LintConfig

/-!
# Helper lemmas about the listings of Verif.Model.Exec
-/

namespace Verif.Exec

open Verif Str Spec

theorem printAll_ok {h : Host} (hp : Prints h) (l : List Str) (w : World) :
    printAll h l w =
      ({ w with out := w.out ++ (l.filter fun s => decide (s ≠ [])).flatMap (· ++ s%"\n") }, .ok ()) := by
  induction l generalizing w with
  | nil => simp [printAll, Run.pure]
  | cons s l ih =>
    unfold printAll println
    by_cases hs : s = []
    · rw [if_pos hs, bind_of_ok (show Run.pure () w = (w, .ok ()) from rfl), ih]
      simp [hs]
    · rw [if_neg hs, bind_of_ok (write_of_prints hp _ w), ih]
      simp [hs]

theorem printAll_ok' {h : Host} (hp : Prints h) {l : List Str} (hl : ∀ s ∈ l, s ≠ []) (w : World) :
    printAll h l w = ({ w with out := w.out ++ l.flatMap (· ++ s%"\n") }, .ok ()) := by
  rw [printAll_ok hp, List.filter_eq_self.2 (by simpa using hl)]

/-- Looking up a documented group. -/
theorem lookupGroup_ok (env : Lint.Env) {g : Str} (hg : toLower g ∈ docGroups) :
    ∃ ls, GoMap.get? (Lint.groupToLinters env) (toLower g) = some ls ∧
      (∀ w, lookupGroup env g w = (w, .ok ls)) ∧ (∀ l ∈ ls, l ∈ Lint.allLinters env) ∧
      (ls.map (·.id)).Nodup ∧ ∀ id, id ∈ ls.map (·.id) ↔ DocInGroup (toLower g) id := by
  obtain ⟨h1, h2⟩ := Props.C24_groups env
  obtain ⟨ls, e⟩ := (h1 _).2 hg
  refine ⟨ls, e, fun w => ?_, h2 _ _ e⟩
  unfold lookupGroup
  rw [e]
  rfl

theorem lookupGroup_unknown (env : Lint.Env) {g : Str} (hg : toLower g ∉ docGroups) (w : World) :
    lookupGroup env g w = (w, .error (.exit 255 (s%"unknown lint group: " ++ toLower g))) := by
  obtain ⟨h1, _⟩ := Props.C24_groups env
  unfold lookupGroup
  cases e : GoMap.get? (Lint.groupToLinters env) (toLower g) with
  | none => rfl
  | some ls => exact absurd ((h1 _).1 ⟨ls, e⟩) hg

theorem getLinterIDs_ok (env : Lint.Env) {g : Str} (hg : toLower g ∈ docGroups) :
    ∃ ids, (∀ w, getLinterIDs env g w = (w, .ok ids)) ∧ ids.Nodup ∧
      ∀ id, id ∈ ids ↔ DocInGroup (toLower g) id := by
  obtain ⟨ls, _, h1, _, h3, h4⟩ := lookupGroup_ok env hg
  refine ⟨_, fun w => by unfold getLinterIDs; rw [bind_of_ok (h1 w)]; rfl, ?_, fun id => ?_⟩
  · have : ∀ (l : List Lint.Linter) (acc : List Str), acc.Nodup →
        (l.foldl (fun m l => setInsert m l.id) acc).Nodup := by
      intro l
      induction l with
      | nil => exact fun _ => id
      | cons a l ih => exact fun acc h => ih _ (setInsert_nodup h _)
    exact this ls [] List.nodup_nil
  · rw [← h4]
    have : ∀ (l : List Lint.Linter) (acc : List Str),
        id ∈ l.foldl (fun m l => setInsert m l.id) acc ↔ id ∈ acc ∨ id ∈ l.map (·.id) := by
      intro l
      induction l with
      | nil => simp
      | cons a l ih =>
        intro acc
        rw [List.foldl_cons, ih, mem_setInsert]
        simp [or_assoc]
    simpa using this ls []

/-- What `diffMaps` gives. -/
theorem diffMaps_spec (o : Order) {one two : List Str} (h1 : one.Nodup) (h2 : two.Nodup) :
    StrictSorted (diffMaps o one two) ∧ ∀ s, s ∈ diffMaps o one two ↔
      (∃ id, s = s%"< " ++ id ∧ id ∈ one ∧ id ∉ two) ∨ (∃ id, s = s%"> " ++ id ∧ id ∈ two ∧ id ∉ one) := by
  have inj : ∀ (p : Str) (l : List Str), l.Nodup → (l.map (p ++ ·)).Nodup := by
    intro p l hl
    unfold List.Nodup at *
    rw [List.pairwise_map]
    exact hl.imp fun hne e => hne (List.append_cancel_left e)
  constructor
  · refine sortStrs_strict (List.nodup_append.2 ⟨?_, ?_, ?_⟩)
    · exact inj _ _ (((o.perm _ _).nodup_iff.2 h1).sublist List.filter_sublist)
    · exact inj _ _ (((o.perm _ _).nodup_iff.2 h2).sublist List.filter_sublist)
    · intro a ha b hb e
      obtain ⟨x, _, rfl⟩ := List.mem_map.1 ha
      obtain ⟨y, _, rfl⟩ := List.mem_map.1 hb
      simp at e
  · intro s
    unfold diffMaps
    rw [mem_sortStrs, List.mem_append, List.mem_map, List.mem_map]
    simp only [List.mem_filter, (o.perm _ _).mem_iff, decide_eq_true_eq]
    constructor
    · rintro (⟨id, h, rfl⟩ | ⟨id, h, rfl⟩)
      · exact .inl ⟨id, rfl, h⟩
      · exact .inr ⟨id, rfl, h⟩
    · rintro (⟨id, rfl, h⟩ | ⟨id, rfl, h⟩)
      · exact .inl ⟨id, h, rfl⟩
      · exact .inr ⟨id, h, rfl⟩

end Verif.Exec
