import Verif.Model.Protostrs
import Verif.Proof.Split
import Verif.Spec.Version

/-! # Lemmas on package versions -/

namespace Verif.Protostrs

open Str Spec

theorem positiveDecimal_iff {s : Str} {v : Nat} :
    PositiveDecimal s v ↔ parseUint64 s = some v ∧ v ≠ 0 := by
  rw [parseUint64_eq_some]
  constructor
  · rintro ⟨h1, h2, h3, h4, h5⟩; exact ⟨⟨h1, h2, h3, h5⟩, by omega⟩
  · rintro ⟨⟨h1, h2, h3, h5⟩, h4⟩; exact ⟨h1, h2, h3, by omega, h5⟩

theorem digits_not_mem {s : Str} (h : ∀ c ∈ s, isDigit c = true) {c : Char} (hc : isDigit c = false) :
    c ∉ s := fun hm => by rw [h c hm] at hc; cases hc

theorem beta_not_mem {s : Str} (h : ∀ c ∈ s, isDigit c = true) :
    ∀ c, (s%"beta").head? = some c → c ∉ s := by
  intro c hc
  simp at hc
  subst hc
  exact digits_not_mem h (by decide)

/-- The version strings accepted by `versionOf`. -/
theorem versionOf_eq_some {s : Str} {major beta : Nat} :
    versionOf s = some (major, beta) ↔
      (PositiveDecimal s major ∧ beta = 0) ∨
      (∃ m b, s = m ++ s%"beta" ++ b ∧ PositiveDecimal m major ∧ PositiveDecimal b beta) := by
  have hsep : (s%"beta") ≠ [] := by simp
  constructor
  · intro h
    have hj := join_splitStr hsep s
    unfold versionOf at h
    split at h
    · split at h
      · cases h
      · rename_i v hv
        split at h
        · cases h
        · rename_i hv0
          injection h with h
          injection h with h1 h2
          subst h1
          exact Or.inl ⟨positiveDecimal_iff.mpr ⟨hv, hv0⟩, h2.symm⟩
    · rename_i m b hs
      split at h
      · cases h
      · split at h
        · rename_i mv bv hm hb
          split at h
          · cases h
          · rename_i h0
            injection h with h
            injection h with h1 h2
            subst h1; subst h2
            refine Or.inr ⟨m, b, ?_, positiveDecimal_iff.mpr ⟨hm, fun e => h0 (Or.inl e)⟩,
              positiveDecimal_iff.mpr ⟨hb, fun e => h0 (Or.inr e)⟩⟩
            rw [hs] at hj
            simpa [join] using hj.symm
        · cases h
    · cases h
  · rintro (⟨h, rfl⟩ | ⟨m, b, rfl, hm, hb⟩)
    · have hs := (splitGo_no_head hsep (beta_not_mem h.2.1)).1
      obtain ⟨h1, h2⟩ := positiveDecimal_iff.mp h
      unfold versionOf splitStr
      rw [hs]
      simp [h1, h2]
    · have hs := (splitGo_no_head hsep (beta_not_mem hm.2.1)).2 b
      rw [(splitGo_no_head hsep (beta_not_mem hb.2.1)).1] at hs
      obtain ⟨h1, h2⟩ := positiveDecimal_iff.mp hm
      obtain ⟨h3, h4⟩ := positiveDecimal_iff.mp hb
      unfold versionOf splitStr
      rw [hs]
      simp [h1, h2, h3, h4, hm.1, hb.1]

theorem versionOf_no_dot {s : Str} {p : Nat × Nat} (h : versionOf s = some p) : '.' ∉ s := by
  rcases versionOf_eq_some.mp h with ⟨h, _⟩ | ⟨m, b, rfl, hm, hb⟩
  · exact digits_not_mem h.2.1 (by decide)
  · simp only [List.mem_append, not_or]
    exact ⟨⟨digits_not_mem hm.2.1 (by decide), by decide⟩, digits_not_mem hb.2.1 (by decide)⟩

/-- `MajorBetaVersion` looks only at the last component. -/
theorem majorBetaVersion_eq_some {pkg : Str} {p : Nat × Nat} :
    majorBetaVersion pkg = some p ↔
      ∃ parent vs, pkg = parent ++ s%"." ++ (s%"v" ++ vs) ∧ vs ≠ [] ∧ versionOf vs = some p := by
  constructor
  · intro h
    unfold majorBetaVersion at h
    split at h
    · cases h
    · simp only at h
      split at h
      · cases h
      · rename_i hlen
        split at h
        · rename_i c cs hl
          have hj := join_splitChar '.' pkg
          have hne := splitChar_ne_nil '.' pkg
          obtain ⟨l, w, hlw⟩ : ∃ l w, splitChar '.' pkg = l ++ [w] :=
            ⟨_, _, (List.dropLast_concat_getLast hne).symm⟩
          rw [hlw] at hl hj hlen
          simp at hl
          subst hl
          have hl0 : l ≠ [] := by rintro rfl; simp at hlen
          rw [join_append_last _ hl0] at hj
          exact ⟨join ['.'] l, c :: cs, by rw [← hj]; simp, by simp, h⟩
        · cases h
  · rintro ⟨parent, vs, rfl, hne, h⟩
    have hd := versionOf_no_dot h
    have hsplit : splitChar '.' (parent ++ s%"." ++ (s%"v" ++ vs)) = splitChar '.' parent ++ ['v' :: vs] := by
      have : parent ++ s%"." ++ (s%"v" ++ vs) = parent ++ '.' :: ('v' :: vs) := by simp
      rw [this, splitChar_append_last]
      simp [hd]
    cases vs with
    | nil => exact absurd rfl hne
    | cons c cs =>
      unfold majorBetaVersion
      rw [hsplit]
      have hlen : ¬ (splitChar '.' parent ++ ['v' :: c :: cs]).length < 2 := by
        have : 0 < (splitChar '.' parent).length := by
          cases hx : splitChar '.' parent with
          | nil => exact absurd hx (splitChar_ne_nil _ _)
          | cons _ _ => simp
        simp; omega
      simp only [hlen, if_false, List.getLast?_append, List.getLast?_singleton, Option.some_or]
      simp [h]

end Verif.Protostrs
