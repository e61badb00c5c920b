import Verif.Proof.Walk

/-!
# The order in which a walk finds files

Whatever is excluded, the files are found in the order of the tree.
-/

namespace Verif.File

open Verif Str Path Spec Settings

mutual
/-- The paths of the files of a tree, in the order of the walk. -/
def allPaths : Node → Str → List Str
  | .file, p => [p]
  | .dir entries, p => allPathsIn entries p
  | .unreadable _, _ => []
  | .broken _, _ => []

def allPathsIn : List (Str × Node) → Str → List Str
  | [], _ => []
  | (name, node) :: rest, p => allPaths node (joinPath [p, name]) ++ allPathsIn rest p
end

/-- What a step adds to the files found. -/
def Adds (st st' : WalkState) (l : List Str) : Prop :=
  ∃ fs, st'.protoFiles = st.protoFiles ++ fs ∧ (fs.map (·.path)).Sublist l

theorem Adds.refl (st : WalkState) (l : List Str) : Adds st st l := ⟨[], by simp, by simp⟩

theorem Adds.trans {a b c : WalkState} {l m : List Str} (h : Adds a b l) (h' : Adds b c m) : Adds a c (l ++ m) := by
  obtain ⟨fs, h1, h2⟩ := h
  obtain ⟨gs, h3, h4⟩ := h'
  exact ⟨fs ++ gs, by rw [h3, h1, List.append_assoc], by rw [List.map_append]; exact h2.append h4⟩

theorem visitFile_adds {c : WalkConfig} {p : Str} {st st' : WalkState}
    (h : visitFile c p st = .next st' ∨ visitFile c p st = .skipDir st') : Adds st st' [p] := by
  unfold visitFile onExcluded at h
  split at h
  · rcases h with h | h <;> cases h
    exact Adds.refl _ _
  · split at h <;> rcases h with h | h <;> cases h
    · exact Adds.refl _ _
    · exact ⟨_, rfl, by simp⟩

theorem visitDir_adds {c : WalkConfig} {p : Str} {st st' : WalkState}
    (h : visitDir c p st = .next st' ∨ visitDir c p st = .skipDir st') : st'.protoFiles = st.protoFiles := by
  unfold visitDir onExcluded at h
  split at h
  · split at h <;> rcases h with h | h <;> cases h <;> rfl
  · split at h
    · rcases h with h | h <;> cases h
    · dsimp only at h
      split at h <;> rcases h with h | h <;> cases h <;> rfl

mutual
theorem walk_adds {c : WalkConfig} : ∀ (node : Node) (p : Str) (st st' : WalkState),
    walk c node p st = .ok st' → Adds st st' (allPaths node p)
  | .file, p, st, st', h => by
    rw [walk] at h
    rw [allPaths]
    split at h
    · rename_i hv
      injection h with h; subst h
      exact visitFile_adds (.inl hv)
    · rename_i hv
      injection h with h; subst h
      exact visitFile_adds (.inr hv)
    · cases h
  | .dir entries, p, st, st', h => by
    rw [walk] at h
    rw [allPaths]
    split at h
    · rename_i st1 hv
      obtain ⟨fs, h1, h2⟩ := walkEntries_adds entries p st1 st' h
      exact ⟨fs, by rw [h1, visitDir_adds (.inl hv)], h2⟩
    · rename_i st1 hv
      injection h with h; subst h
      exact ⟨[], by rw [visitDir_adds (.inr hv), List.append_nil], by simp⟩
    · cases h
  | .unreadable e, p, st, st', h => by rw [walk] at h; cases h
  | .broken e, p, st, st', h => by rw [walk] at h; cases h

theorem walkEntries_adds {c : WalkConfig} : ∀ (entries : List (Str × Node)) (p : Str) (st st' : WalkState),
    walkEntries c entries p st = .ok st' → Adds st st' (allPathsIn entries p)
  | [], p, st, st', h => by
    rw [walkEntries] at h
    injection h with h; subst h
    exact Adds.refl _ _
  | (name, node) :: rest, p, st, st', h => by
    rw [walkEntries] at h
    rw [allPathsIn]
    split at h
    · cases h
    · rename_i st1 hw
      exact (walk_adds node _ st st1 hw).trans (walkEntries_adds rest p st1 st' h)
end

mutual
theorem allPaths_nodup : ∀ (node : Node), TreeOK node → ∀ cs, Components cs →
    (allPaths node (absPath cs)).Nodup ∧ ∀ q ∈ allPaths node (absPath cs), ∃ ds, Components (cs ++ ds) ∧ q = absPath (cs ++ ds)
  | .file, _, cs, hc => by
    rw [allPaths]
    refine ⟨by simp, fun q hq => ⟨[], by simpa using hc, ?_⟩⟩
    rw [List.mem_singleton.1 hq, List.append_nil]
  | .dir entries, ht, cs, hc => by
    rw [allPaths]
    obtain ⟨hn, hcomp⟩ := ht [] entries rfl
    obtain ⟨h1, h2⟩ := allPathsIn_nodup entries (fun name node hm => treeOK_child ht hm) hn
      (fun name node hm => hcomp _ hm) cs hc
    refine ⟨h1, fun q hq => ?_⟩
    obtain ⟨name, _, ds, h3, h4⟩ := h2 q hq
    exact ⟨name :: ds, h3, h4⟩
  | .unreadable e, _, cs, _ => by rw [allPaths]; exact ⟨List.nodup_nil, fun q hq => by cases hq⟩
  | .broken e, _, cs, _ => by rw [allPaths]; exact ⟨List.nodup_nil, fun q hq => by cases hq⟩

theorem allPathsIn_nodup : ∀ (entries : List (Str × Node)), (∀ name node, (name, node) ∈ entries → TreeOK node) →
    (entries.map (·.1)).Nodup → (∀ name node, (name, node) ∈ entries → Component name) → ∀ cs, Components cs →
    (allPathsIn entries (absPath cs)).Nodup ∧ ∀ q ∈ allPathsIn entries (absPath cs), ∃ name ∈ entries.map (·.1), ∃ ds,
      Components (cs ++ name :: ds) ∧ q = absPath (cs ++ name :: ds)
  | [], _, _, _, cs, _ => by rw [allPathsIn]; exact ⟨List.nodup_nil, fun q hq => by cases hq⟩
  | (name, node) :: rest, ht, hn, hcomp, cs, hc => by
    rw [allPathsIn]
    have hcn := components_snoc hc (hcomp name node (by simp))
    rw [joinPath_component hcn]
    rw [List.map_cons, List.nodup_cons] at hn
    obtain ⟨h1, h2⟩ := allPaths_nodup node (ht name node (by simp)) (cs ++ [name]) hcn
    obtain ⟨h3, h4⟩ := allPathsIn_nodup rest (fun n m hm => ht n m (by simp [hm])) hn.2
      (fun n m hm => hcomp n m (by simp [hm])) cs hc
    refine ⟨List.nodup_append.2 ⟨h1, h3, ?_⟩, fun q hq => ?_⟩
    · intro q hq q' hq' e
      subst e
      obtain ⟨ds, hds, e1⟩ := h2 q hq
      obtain ⟨name', hm, ds', hds', e2⟩ := h4 q hq'
      have := absPath_inj hds hds' (e1.symm.trans e2)
      rw [List.append_assoc] at this
      have := List.append_cancel_left this
      rw [List.singleton_append] at this
      injection this with this
      exact hn.1 (by rw [this]; exact hm)
    · rcases List.mem_append.1 hq with hq | hq
      · obtain ⟨ds, hds, e⟩ := h2 q hq
        exact ⟨name, by simp, ds, by simpa using hds, by simpa using e⟩
      · obtain ⟨name', hm, hx⟩ := h4 q hq
        exact ⟨name', by simp [List.mem_cons_of_mem _ hm], hx⟩
end

/-- A sublist of a list without repetition is what remains of it when the others are taken out. -/
theorem sublist_eq_filter {α : Type} [DecidableEq α] {a l : List α} (h : a.Sublist l) (hn : l.Nodup) :
    a = l.filter (· ∈ a) := by
  induction h with
  | slnil => rfl
  | @cons a l x h ih =>
    rw [List.nodup_cons] at hn
    rw [List.filter_cons_of_neg]
    · exact ih hn.2
    · have : x ∉ a := fun hx => hn.1 (h.subset hx)
      simpa using this
  | @cons_cons a l x h ih =>
    rw [List.nodup_cons] at hn
    rw [List.filter_cons_of_pos (by simp)]
    congr 1
    rw [ih hn.2]
    apply List.filter_congr
    intro y hy
    rw [← ih hn.2]
    have : y ≠ x := fun e => hn.1 (e ▸ hy)
    simp [this]

/-- If one walk of a tree finds fewer files than another, it finds them in the same order. -/
theorem walkAll_order {c c' : WalkConfig} {D D' : List Str} {root : Node} (hroot : IsAbsPath c.absDirPath)
    (hsame : c'.absDirPath = c.absDirPath) (ht : TreeOK root) {fs fs' : List ProtoFile}
    (h : walkAll c root D = .ok fs) (h' : walkAll c' root D' = .ok fs') (P : Str → Prop) [DecidablePred P]
    (hmem : ∀ p, p ∈ fs'.map (·.path) ↔ p ∈ fs.map (·.path) ∧ P p) :
    fs'.map (·.path) = (fs.map (·.path)).filter fun p => decide (P p) := by
  obtain ⟨cs, hcs, e⟩ := hroot
  have hn := (allPaths_nodup root ht cs hcs).1
  have key : ∀ {c : WalkConfig} {D : List Str} {fs : List ProtoFile}, c.absDirPath = absPath cs →
      walkAll c root D = .ok fs → (fs.map (·.path)).Sublist (allPaths root (absPath cs)) := by
    intro c D fs e h
    unfold walkAll at h
    rw [e] at h
    split at h
    · cases h
    · rename_i st hw
      injection h with h; subst h
      obtain ⟨gs, h1, h2⟩ := walk_adds root _ _ st hw
      rw [h1]
      exact h2
  have h1 := sublist_eq_filter (key e h) hn
  have h2 := sublist_eq_filter (key (hsame.trans e) h') hn
  rw [h2]
  conv => rhs; rw [h1]
  rw [List.filter_filter]
  apply List.filter_congr
  intro p _
  have := hmem p
  by_cases hp : p ∈ fs'.map (·.path)
  · have hq := this.1 hp
    simp only [hp, hq.1, hq.2, decide_true, Bool.and_true]
  · simp only [hp, decide_false]
    by_cases hq : p ∈ fs.map (·.path)
    · have : ¬ P p := fun x => hp (this.2 ⟨hq, x⟩)
      simp [this]
    · simp only [hq, decide_false, Bool.and_false]

end Verif.File
