import Verif.Proof.Sort

/-! # Comparison functions (`Less`) as strict weak orders -/

namespace Verif

/-- A `Less` function that is a strict weak order: what `sort` requires. -/
structure SWO {α : Type} (lt : α → α → Bool) : Prop where
  asymm : ∀ a b, lt a b = true → lt b a = false
  negTrans : ∀ a b c, lt a b = false → lt b c = false → lt a c = false

namespace SWO

variable {α β : Type} {lt : α → α → Bool}

theorem irrefl (h : SWO lt) (a : α) : lt a a = false := by
  cases e : lt a a with
  | false => rfl
  | true => rw [← e, h.asymm a a e]

theorem str : SWO Str.lt where
  asymm _ _ h := Str.lt_asymm h
  negTrans a b c h1 h2 := by
    have h1' : Str.le b a = true := by simp [Str.le, h1]
    have h2' : Str.le c b = true := by simp [Str.le, h2]
    have := Str.le_trans h2' h1'
    simpa [Str.le] using this

theorem int : SWO (fun a b : Int => decide (a < b)) where
  asymm a b h := by simp at *; omega
  negTrans a b c h1 h2 := by simp at *; omega

theorem nat : SWO (fun a b : Nat => decide (a < b)) where
  asymm a b h := by simp at *; omega
  negTrans a b c h1 h2 := by simp at *; omega

/-- Comparison by a key. -/
theorem on (h : SWO lt) (f : β → α) : SWO (fun a b => lt (f a) (f b)) where
  asymm _ _ := h.asymm _ _
  negTrans _ _ _ := h.negTrans _ _ _

/-- Lexicographic combination, in the form `if less { true } if greater { false } ...`. -/
theorem lex {lt₁ lt₂ : α → α → Bool} (h₁ : SWO lt₁) (h₂ : SWO lt₂) :
    SWO (fun a b => if lt₁ a b then true else if lt₁ b a then false else lt₂ a b) where
  asymm a b h := by
    have e1 := h₁.asymm a b
    have e2 := h₂.asymm a b
    revert h e1 e2
    cases lt₁ a b <;> cases lt₁ b a <;> cases lt₂ a b <;> cases lt₂ b a <;> simp
  negTrans a b c h h' := by
    have e1 := h₁.negTrans a b c
    have e2 := h₂.negTrans a b c
    have e3 := h₁.negTrans c b a
    have e4 := h₁.negTrans b a c
    have e5 := h₁.negTrans b c a
    have e6 := h₁.negTrans c a b
    have e7 := h₁.negTrans a c b
    have f1 := h₁.asymm a b
    have f2 := h₁.asymm b c
    have f3 := h₁.asymm a c
    revert h h' e1 e2 e3 e4 e5 e6 e7 f1 f2 f3
    cases lt₁ a b <;> cases lt₁ b a <;> cases lt₁ b c <;> cases lt₁ c b <;> cases lt₁ a c <;>
      cases lt₁ c a <;> cases lt₂ a b <;> cases lt₂ b c <;> cases lt₂ a c <;> simp

theorem total (h : SWO lt) (a b : α) : (!lt b a) = true ∨ (!lt a b) = true := by
  cases e : lt b a with
  | false => simp
  | true => simp [h.asymm _ _ e]

theorem trans (h : SWO lt) (a b c : α) (h1 : (!lt b a) = true) (h2 : (!lt c b) = true) :
    (!lt c a) = true := by
  have := h.negTrans c b a
  simp at *
  exact this h2 h1

end SWO

/-- `sort.Stable` with the given `Less`. -/
theorem sortBy_less_sorted {α : Type} {lt : α → α → Bool} (h : SWO lt) (l : List α) :
    Sorted (fun a b => !lt b a) (sortBy (fun a b => !lt b a) l) :=
  sortBy_sorted h.total h.trans l

theorem sortBy_less_eq_of_perm {α : Type} {lt : α → α → Bool} (h : SWO lt)
    {l₁ l₂ : List α} (anti : ∀ a ∈ l₁, ∀ b ∈ l₁, lt a b = false → lt b a = false → a = b)
    (hp : l₁.Perm l₂) :
    sortBy (fun a b => !lt b a) l₁ = sortBy (fun a b => !lt b a) l₂ := by
  apply sortBy_eq_of_perm h.total h.trans _ hp
  intro a b ha hb h1 h2
  simp at h1 h2
  exact anti a ha b hb h2 h1

end Verif
