import Verif.Go.Map

/-! # Lemmas about Go maps -/

namespace Verif.GoMap

variable {κ ν : Type} [DecidableEq κ]

theorem get?_nil (k : κ) : get? ([] : GoMap κ ν) k = none := rfl

theorem get?_cons (p : κ × ν) (m : GoMap κ ν) (k : κ) :
    get? (p :: m) k = if p.1 = k then some p.2 else get? m k := by
  unfold get?
  by_cases h : p.1 = k
  · rw [List.find?_cons_of_pos (by simpa using h), if_pos h]; rfl
  · rw [List.find?_cons_of_neg (by simpa using h), if_neg h]

theorem get?_set (m : GoMap κ ν) (k k' : κ) (v : ν) :
    get? (set m k v) k' = if k = k' then some v else get? m k' := by
  induction m with
  | nil => simp only [set, get?_cons, get?_nil]
  | cons p m ih =>
    unfold set
    by_cases hp : p.1 = k
    · rw [if_pos hp, get?_cons, get?_cons, hp]
      by_cases h : k = k'
      · simp [h]
      · simp [h]
    · rw [if_neg hp, get?_cons, get?_cons, ih]
      by_cases h : k = k'
      · subst h; simp [hp]
      · simp [h]

theorem get?_some_mem {m : GoMap κ ν} {k : κ} {v : ν} (h : get? m k = some v) : (k, v) ∈ m := by
  induction m with
  | nil => cases h
  | cons p m ih =>
    rw [get?_cons] at h
    split at h
    · rename_i hp
      cases h
      rw [← hp]; exact List.mem_cons_self
    · exact List.mem_cons_of_mem _ (ih h)

theorem get?_none {m : GoMap κ ν} {k : κ} : get? m k = none ↔ ∀ p ∈ m, p.1 ≠ k := by
  induction m with
  | nil => simp [get?_nil]
  | cons p m ih =>
    rw [get?_cons]
    split
    · rename_i hp
      simp [hp]
    · rename_i hp
      rw [ih]
      simp [hp]

theorem get?_of_mem {m : GoMap κ ν} (hn : (m.map (·.1)).Nodup) {k : κ} {v : ν} (h : (k, v) ∈ m) :
    get? m k = some v := by
  induction m with
  | nil => cases h
  | cons p m ih =>
    rw [List.map_cons, List.nodup_cons] at hn
    rw [get?_cons]
    rcases List.mem_cons.1 h with h | h
    · rw [← h]; simp
    · rw [if_neg, ih hn.2 h]
      intro he
      exact hn.1 (he ▸ List.mem_map_of_mem (f := (·.1)) h)

theorem set_keys (m : GoMap κ ν) (k : κ) (v : ν) :
    (set m k v).map (·.1) = if k ∈ m.map (·.1) then m.map (·.1) else m.map (·.1) ++ [k] := by
  induction m with
  | nil => simp [set]
  | cons p m ih =>
    unfold set
    by_cases hp : p.1 = k
    · rw [if_pos hp]; simp [hp]
    · rw [if_neg hp, List.map_cons, ih]
      by_cases hk : k ∈ m.map (·.1)
      · rw [if_pos hk, if_pos (by simp [hk])]; rfl
      · rw [if_neg hk, if_neg]
        · rfl
        · rw [List.map_cons, List.mem_cons]
          rintro (h | h)
          · exact hp h.symm
          · exact hk h

theorem set_keys_nodup {m : GoMap κ ν} (h : (m.map (·.1)).Nodup) (k : κ) (v : ν) :
    ((set m k v).map (·.1)).Nodup := by
  rw [set_keys]
  split
  · exact h
  · rename_i hk
    rw [List.nodup_append]
    refine ⟨h, by simp, ?_⟩
    rintro a ha b hb rfl
    rw [List.mem_singleton.1 hb] at ha
    exact hk ha

end Verif.GoMap
