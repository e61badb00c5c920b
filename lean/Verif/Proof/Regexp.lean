import Verif.Go.Regexp
import Verif.Proof.Split

/-! # What the expressions match -/

namespace Verif.Regexp

open Verif Str

/-- The text is made of parts for the pieces, one after the other. -/
def Fit (toEnd : Bool) : List Piece → Str → Prop
  | [], s => toEnd = true → s = []
  | .lit l :: ps, s => ∃ r, s = l ++ r ∧ Fit toEnd ps r
  | .any :: ps, s => ∃ c r, s = c :: r ∧ dot c = true ∧ Fit toEnd ps r
  | .star :: ps, s => ∃ a r, s = a ++ r ∧ (∀ c ∈ a, dot c = true) ∧ Fit toEnd ps r
  | .digits :: ps, s => ∃ a r, s = a ++ r ∧ a ≠ [] ∧ (∀ c ∈ a, isDigit c = true) ∧ Fit toEnd ps r

theorem greedy_some {α} {p : Char → Bool} {k : Str → Str → Option α} {taken s r}
    (h : greedy p k taken s = some r) :
    ∃ a b, s = a ++ b ∧ (∀ c ∈ a, p c = true) ∧ k (taken ++ a) b = some r := by
  induction s generalizing taken with
  | nil => exact ⟨[], [], rfl, by simp, by simpa [greedy] using h⟩
  | cons c cs ih =>
    unfold greedy at h
    split at h
    next hp =>
      split at h
      next r' hr =>
        cases h
        obtain ⟨a, b, rfl, ha, hk⟩ := ih hr
        exact ⟨c :: a, b, rfl, by simpa [hp] using ha, by simpa using hk⟩
      next => exact ⟨[], _, rfl, by simp, by simpa using h⟩
    next => exact ⟨[], _, rfl, by simp, by simpa using h⟩

theorem greedy_isSome {α} {p : Char → Bool} {k : Str → Str → Option α} {taken s} :
    (greedy p k taken s).isSome = true ↔
      ∃ a b, s = a ++ b ∧ (∀ c ∈ a, p c = true) ∧ (k (taken ++ a) b).isSome = true := by
  constructor
  · intro h
    obtain ⟨r, hr⟩ := Option.isSome_iff_exists.1 h
    obtain ⟨a, b, h1, h2, h3⟩ := greedy_some hr
    exact ⟨a, b, h1, h2, by simp [h3]⟩
  · rintro ⟨a, b, rfl, ha, hk⟩
    induction a generalizing taken with
    | nil =>
      cases b with
      | nil => simpa [greedy] using hk
      | cons c cs =>
        rw [List.nil_append]
        unfold greedy
        split
        · split
          · rfl
          · simpa using hk
        · simpa using hk
    | cons c a ih =>
      have hc : p c = true := ha c (by simp)
      have := ih (taken := taken ++ [c]) (fun x hx => ha x (by simp [hx])) (by simpa using hk)
      simp only [List.cons_append]
      unfold greedy
      rw [if_pos hc]
      split
      · rfl
      next hn => rw [hn] at this; cases this

theorem matchHere_isSome {e : Bool} {ps : List Piece} {s : Str} :
    (matchHere e ps s).isSome = true ↔ Fit e ps s := by
  induction ps generalizing s with
  | nil => unfold matchHere Fit; cases e <;> cases s <;> simp
  | cons p ps ih =>
    cases p with
    | lit l =>
      unfold matchHere Fit
      constructor
      · intro h
        split at h
        next hp =>
          obtain ⟨r, rfl⟩ := List.isPrefixOf_iff_prefix.1 hp
          exact ⟨r, rfl, by simpa [← ih] using h⟩
        next => cases h
      · rintro ⟨r, rfl, hr⟩
        rw [if_pos (show hasPrefix (l ++ r) l = true from
          List.isPrefixOf_iff_prefix.2 (List.prefix_append _ _))]
        simpa [ih] using hr
    | any =>
      unfold matchHere Fit
      cases s with
      | nil => simp
      | cons c cs =>
        constructor
        · intro h
          simp only at h
          split at h
          next hc => exact ⟨c, cs, rfl, hc, by simpa [← ih] using h⟩
          next => cases h
        · rintro ⟨c', r, h, hc, hr⟩
          cases h
          simp only
          rw [if_pos hc]
          simpa [ih] using hr
    | star =>
      unfold matchHere Fit
      rw [greedy_isSome]
      simp only [Option.isSome_map, ih, List.nil_append]
    | digits =>
      unfold matchHere Fit
      cases s with
      | nil =>
        constructor
        · intro h; cases h
        · rintro ⟨a, r, h, hne, _⟩
          cases a with
          | nil => exact absurd rfl hne
          | cons => cases h
      | cons c cs =>
        simp only
        constructor
        · intro h
          split at h
          next hc =>
            rw [greedy_isSome] at h
            obtain ⟨a, b, rfl, ha, hk⟩ := h
            exact ⟨c :: a, b, rfl, by simp, by simpa [hc] using ha, by simpa [ih] using hk⟩
          next => cases h
        · rintro ⟨a, r, h, hne, ha, hr⟩
          cases a with
          | nil => exact absurd rfl hne
          | cons c' a =>
            cases h
            rw [if_pos (ha c (by simp)), greedy_isSome]
            exact ⟨a, r, rfl, fun x hx => ha x (by simp [hx]), by simpa [ih] using hr⟩

theorem matchAnywhere_isSome {e : Bool} {ps : List Piece} {s : Str} :
    (matchAnywhere e ps s).isSome = true ↔ ∃ a b, s = a ++ b ∧ Fit e ps b := by
  induction s with
  | nil =>
    unfold matchAnywhere
    rw [matchHere_isSome]
    constructor
    · intro h; exact ⟨[], [], rfl, h⟩
    · rintro ⟨a, b, h, hf⟩
      cases a with
      | nil => simp at h; subst h; exact hf
      | cons => cases h
  | cons c cs ih =>
    unfold matchAnywhere
    constructor
    · intro h
      split at h
      next r hr => exact ⟨[], _, rfl, matchHere_isSome.1 (by simp [hr])⟩
      next =>
        obtain ⟨a, b, rfl, hf⟩ := ih.1 h
        exact ⟨c :: a, b, rfl, hf⟩
    · rintro ⟨a, b, h, hf⟩
      split
      · rfl
      next hn =>
        cases a with
        | nil =>
          have hb : b = c :: cs := by simpa using h.symm
          subst hb
          have := matchHere_isSome.2 hf
          rw [hn] at this; cases this
        | cons c' a =>
          have : cs = a ++ b := by simpa using (List.cons.inj h).2
          exact ih.2 ⟨a, b, this, hf⟩

/-- When an expression matches. -/
def Exp.Matches (e : Exp) (s : Str) : Prop :=
  if e.fromStart then Fit e.toEnd (e.pieces.map (·.2)) s
  else ∃ a b, s = a ++ b ∧ Fit e.toEnd (e.pieces.map (·.2)) b

theorem find_isSome {e : Exp} {s : Str} : (e.find s).isSome = true ↔ e.Matches s := by
  unfold Exp.find Exp.Matches
  cases e.fromStart <;> simp [matchHere_isSome, matchAnywhere_isSome]

theorem find_none {e : Exp} {s : Str} : e.find s = none ↔ ¬ e.Matches s := by
  rw [← find_isSome, Option.not_isSome_iff_eq_none]

end Verif.Regexp
