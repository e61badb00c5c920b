import Verif.Proof.Map
import Verif.Spec.RequestTypes

/-! # Maps filled one entry after the other -/

namespace Verif

open Spec

variable {α κ ν : Type} [DecidableEq κ]

theorem lastBy_snoc (key : α → κ) (as : List α) (a : α) :
    lastBy key (as ++ [a]) = (lastBy key as).filter (fun b => key b ≠ key a) ++ [a] := by
  induction as with
  | nil => simp [lastBy]
  | cons b as ih =>
    rw [List.cons_append, lastBy, lastBy, ih]
    by_cases hb : ∃ c ∈ as, key c = key b
    · rw [if_pos hb, if_pos]
      obtain ⟨c, hc, h⟩ := hb
      exact ⟨c, List.mem_append_left _ hc, h⟩
    · rw [if_neg hb]
      by_cases hk : key b = key a
      · rw [if_pos ⟨a, by simp, hk.symm⟩, List.filter_cons, if_neg (by simp [hk])]
      · rw [if_neg, List.filter_cons, if_pos (by simp [hk])]
        · rfl
        · rintro ⟨c, hc, h⟩
          rcases List.mem_append.1 hc with hc | hc
          · exact hb ⟨c, hc, h⟩
          · rw [List.mem_singleton.1 hc] at h; exact hk h.symm

theorem lastBy_map {β : Type} (key : β → κ) (f : α → β) (as : List α) :
    lastBy key (as.map f) = (lastBy (fun a => key (f a)) as).map f := by
  induction as with
  | nil => rfl
  | cons a as ih =>
    rw [List.map_cons, lastBy, lastBy, ih]
    by_cases h : ∃ b ∈ as, key (f b) = key (f a)
    · rw [if_pos h, if_pos]
      obtain ⟨b, hb, h⟩ := h
      exact ⟨f b, List.mem_map_of_mem hb, h⟩
    · rw [if_neg h, if_neg]
      · rfl
      · rintro ⟨b, hb, h'⟩
        obtain ⟨c, hc, rfl⟩ := List.mem_map.1 hb
        exact h ⟨c, hc, h'⟩

theorem lastBy_nodup {key : α → κ} {as : List α} (h : (as.map key).Nodup) : lastBy key as = as := by
  induction as with
  | nil => rfl
  | cons a as ih =>
    rw [List.map_cons, List.nodup_cons] at h
    rw [lastBy, if_neg, ih h.2]
    rintro ⟨b, hb, hk⟩
    exact h.1 (hk ▸ List.mem_map_of_mem hb)

theorem lastBy_mem {key : α → κ} {as : List α} {a : α} (h : a ∈ lastBy key as) : a ∈ as := by
  induction as with
  | nil => cases h
  | cons b as ih =>
    rw [lastBy] at h
    split at h
    · exact List.mem_cons_of_mem _ (ih h)
    · rcases List.mem_cons.1 h with rfl | h
      · exact List.mem_cons_self
      · exact List.mem_cons_of_mem _ (ih h)

namespace GoMap

theorem set_perm {m : GoMap κ ν} (h : (m.map (·.1)).Nodup) (k : κ) (v : ν) :
    (set m k v).Perm (m.filter (fun p => p.1 ≠ k) ++ [(k, v)]) := by
  induction m with
  | nil => exact .refl _
  | cons p m ih =>
    rw [List.map_cons, List.nodup_cons] at h
    unfold set
    by_cases hp : p.1 = k
    · rw [if_pos hp, List.filter_cons, if_neg (by simp [hp])]
      have : m.filter (fun p => p.1 ≠ k) = m := by
        rw [List.filter_eq_self]
        intro q hq
        have : q.1 ≠ k := fun e => h.1 (by rw [hp, ← e]; exact List.mem_map_of_mem (f := (·.1)) hq)
        simp [this]
      rw [this]
      exact (List.perm_append_comm (l₁ := [(k, v)]))
    · rw [if_neg hp, List.filter_cons, if_pos (by simp [hp])]
      exact (ih h.2).cons _

/-- The entries added one after the other. -/
def build (ps : List (κ × ν)) : GoMap κ ν := ps.foldl (fun m p => set m p.1 p.2) []

theorem build_snoc (ps : List (κ × ν)) (p : κ × ν) : build (ps ++ [p]) = set (build ps) p.1 p.2 := by
  unfold build; rw [List.foldl_append]; rfl

theorem build_perm (ps : List (κ × ν)) :
    ((build ps).map (·.1)).Nodup ∧ (build ps).Perm (lastBy (·.1) ps) := by
  rw [← List.reverse_reverse ps]
  induction ps.reverse with
  | nil => exact ⟨.nil, .refl _⟩
  | cons p qs ih =>
    rw [List.reverse_cons, build_snoc, lastBy_snoc]
    exact ⟨set_keys_nodup ih.1 _ _, (set_perm ih.1 _ _).trans ((ih.2.filter _).append_right _)⟩

theorem get?_build (ps : List (κ × ν)) (k : κ) :
    get? (build ps) k = ((ps.filter fun p => p.1 = k).getLast?).map (·.2) := by
  rw [← List.reverse_reverse ps]
  induction ps.reverse with
  | nil => rfl
  | cons p qs ih =>
    rw [List.reverse_cons, build_snoc, get?_set, List.filter_append, ih]
    by_cases h : p.1 = k
    · rw [if_pos h, List.filter_cons, if_pos (by simp [h])]
      simp
    · rw [if_neg h, List.filter_cons, if_neg (by simp [h])]
      simp

end GoMap

end Verif
