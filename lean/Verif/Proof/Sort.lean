import Verif.Go.Map

/-! # Lemmas on string order and sorting -/

namespace Verif

theorem char_toNat_inj {a b : Char} (h : a.toNat = b.toNat) : a = b := Char.toNat_inj.mp h

namespace Str

theorem lt_irrefl (a : Str) : lt a a = false := by
  induction a with
  | nil => rfl
  | cons x xs ih => simp [lt, ih]

theorem lt_trans {a b c : Str} : lt a b = true → lt b c = true → lt a c = true := by
  induction a generalizing b c with
  | nil =>
    intro h1 h2
    cases c with
    | nil => cases b <;> simp [lt] at h2
    | cons z zs => simp [lt]
  | cons x xs ih =>
    intro h1 h2
    cases b with
    | nil => simp [lt] at h1
    | cons y ys =>
      cases c with
      | nil => simp [lt] at h2
      | cons z zs =>
        simp only [lt] at h1 h2 ⊢
        by_cases hxy : x.toNat < y.toNat
        · by_cases hyz : y.toNat < z.toNat
          · have : x.toNat < z.toNat := by omega
            simp [this]
          · by_cases hzy : z.toNat < y.toNat
            · simp [hyz, hzy] at h2
            · have : x.toNat < z.toNat := by omega
              simp [this]
        · by_cases hyx : y.toNat < x.toNat
          · simp [hxy, hyx] at h1
          · simp only [hxy, hyx, if_false] at h1
            by_cases hyz : y.toNat < z.toNat
            · have : x.toNat < z.toNat := by omega
              simp [this]
            · by_cases hzy : z.toNat < y.toNat
              · simp [hyz, hzy] at h2
              · simp only [hyz, hzy, if_false] at h2
                have h1' : ¬ x.toNat < z.toNat := by omega
                have h2' : ¬ z.toNat < x.toNat := by omega
                simp only [h1', h2', if_false]
                exact ih h1 h2

theorem lt_trichotomy (a b : Str) : lt a b = true ∨ a = b ∨ lt b a = true := by
  induction a generalizing b with
  | nil => cases b <;> simp [lt]
  | cons x xs ih =>
    cases b with
    | nil => simp [lt]
    | cons y ys =>
      simp only [lt]
      by_cases hxy : x.toNat < y.toNat
      · simp [hxy]
      · by_cases hyx : y.toNat < x.toNat
        · simp [hyx]
        · have : x = y := char_toNat_inj (by omega)
          subst this
          simpa using ih ys

theorem lt_asymm {a b : Str} (h : lt a b = true) : lt b a = false := by
  cases h' : lt b a with
  | false => rfl
  | true =>
    have := lt_trans h h'
    rw [lt_irrefl] at this
    exact absurd this (by decide)

theorem le_refl (a : Str) : le a a = true := by simp [le, lt_irrefl]

theorem le_iff {a b : Str} : le a b = true ↔ lt a b = true ∨ a = b := by
  unfold le
  constructor
  · intro h
    rcases lt_trichotomy a b with h1 | h1 | h1
    · exact Or.inl h1
    · exact Or.inr h1
    · simp [h1] at h
  · rintro (h | h)
    · simp [lt_asymm h]
    · subst h; simp [lt_irrefl]

theorem le_trans {a b c : Str} (h1 : le a b = true) (h2 : le b c = true) : le a c = true := by
  rw [le_iff] at *
  rcases h1 with h1 | rfl
  · rcases h2 with h2 | rfl
    · exact Or.inl (lt_trans h1 h2)
    · exact Or.inl h1
  · exact h2

theorem le_total (a b : Str) : le a b = true ∨ le b a = true := by
  rw [le_iff, le_iff]
  rcases lt_trichotomy a b with h | h | h
  · exact Or.inl (Or.inl h)
  · exact Or.inl (Or.inr h)
  · exact Or.inr (Or.inl h)

theorem le_antisymm {a b : Str} (h1 : le a b = true) (h2 : le b a = true) : a = b := by
  rw [le_iff] at *
  rcases h1 with h1 | h1
  · rcases h2 with h2 | h2
    · rw [lt_asymm h1] at h2; exact absurd h2 (by decide)
    · exact h2.symm
  · exact h1

end Str

/-! ## Insertion sort -/

section SortLemmas
variable {α : Type} {le : α → α → Bool}

theorem insertBy_perm (a : α) (l : List α) : (insertBy le a l).Perm (a :: l) := by
  induction l with
  | nil => exact List.Perm.refl _
  | cons b bs ih =>
    simp only [insertBy]
    split
    · exact List.Perm.refl _
    · exact (List.Perm.cons b ih).trans (List.Perm.swap a b bs)

theorem sortBy_perm (l : List α) : (sortBy le l).Perm l := by
  induction l with
  | nil => exact List.Perm.refl _
  | cons a as ih => exact (insertBy_perm a _).trans (List.Perm.cons a ih)

theorem mem_sortBy {a : α} {l : List α} : a ∈ sortBy le l ↔ a ∈ l := (sortBy_perm l).mem_iff

theorem length_sortBy (l : List α) : (sortBy le l).length = l.length := (sortBy_perm l).length_eq

/-- Every element is `le` all later ones. -/
abbrev Sorted (le : α → α → Bool) (l : List α) : Prop := l.Pairwise fun a b => le a b = true

theorem insertBy_sorted (total : ∀ a b, le a b = true ∨ le b a = true)
    (trans : ∀ a b c, le a b = true → le b c = true → le a c = true)
    (a : α) {l : List α} (h : Sorted le l) : Sorted le (insertBy le a l) := by
  induction l with
  | nil => simp [insertBy]
  | cons b bs ih =>
    simp only [insertBy]
    have hb := List.pairwise_cons.mp h
    split
    · rename_i hab
      refine List.pairwise_cons.mpr ⟨?_, h⟩
      intro c hc
      rcases List.mem_cons.mp hc with rfl | hc
      · exact hab
      · exact trans _ _ _ hab (hb.1 c hc)
    · rename_i hab
      have hba : le b a = true := (total a b).resolve_left hab
      refine List.pairwise_cons.mpr ⟨?_, ih hb.2⟩
      intro c hc
      have hc' := (insertBy_perm (le := le) a bs).mem_iff.mp hc
      rcases List.mem_cons.mp hc' with rfl | hc'
      · exact hba
      · exact hb.1 c hc'

theorem sortBy_sorted (total : ∀ a b, le a b = true ∨ le b a = true)
    (trans : ∀ a b c, le a b = true → le b c = true → le a c = true)
    (l : List α) : Sorted le (sortBy le l) := by
  induction l with
  | nil => simp [sortBy]
  | cons a as ih => exact insertBy_sorted total trans a ih

/-- Two sorted permutations are equal if `le` is antisymmetric on them. -/
theorem sorted_perm_eq {l₁ l₂ : List α}
    (anti : ∀ a b, a ∈ l₁ → b ∈ l₁ → le a b = true → le b a = true → a = b)
    (h₁ : Sorted le l₁) (h₂ : Sorted le l₂) (hp : l₁.Perm l₂) : l₁ = l₂ := by
  induction l₁ generalizing l₂ with
  | nil => exact (List.nil_perm.mp hp).symm
  | cons a as ih =>
    cases l₂ with
    | nil => exact absurd hp.length_eq (by simp)
    | cons b bs =>
      have h1 := List.pairwise_cons.mp h₁
      have h2 := List.pairwise_cons.mp h₂
      have hab : a = b := by
        by_cases he : a = b
        · exact he
        · have ha : a ∈ b :: bs := hp.mem_iff.mp (List.mem_cons_self ..)
          have hb : b ∈ a :: as := hp.mem_iff.mpr (List.mem_cons_self ..)
          have ha' : a ∈ bs := by
            rcases List.mem_cons.mp ha with h | h
            · exact absurd h he
            · exact h
          have hb' : b ∈ as := by
            rcases List.mem_cons.mp hb with h | h
            · exact absurd h.symm he
            · exact h
          exact anti a b (List.mem_cons_self ..) hb (h1.1 b hb') (h2.1 a ha')
      subst hab
      have hp' := List.Perm.cons_inv hp
      rw [ih (fun x y hx hy => anti x y (List.mem_cons_of_mem _ hx) (List.mem_cons_of_mem _ hy))
        h1.2 h2.2 hp']

/-- Sorting is canonical: permutations sort to the same list when `le` is
antisymmetric on the elements. -/
theorem sortBy_eq_of_perm (total : ∀ a b, le a b = true ∨ le b a = true)
    (trans : ∀ a b c, le a b = true → le b c = true → le a c = true)
    {l₁ l₂ : List α} (anti : ∀ a b, a ∈ l₁ → b ∈ l₁ → le a b = true → le b a = true → a = b)
    (hp : l₁.Perm l₂) : sortBy le l₁ = sortBy le l₂ :=
  sorted_perm_eq (fun a b ha hb => anti a b (mem_sortBy.mp ha) (mem_sortBy.mp hb))
    (sortBy_sorted total trans l₁) (sortBy_sorted total trans l₂)
    ((sortBy_perm l₁).trans (hp.trans (sortBy_perm l₂).symm))

theorem sortBy_of_sorted {l : List α} (h : Sorted le l) : sortBy le l = l := by
  induction l with
  | nil => rfl
  | cons a as ih =>
    have h' := List.pairwise_cons.mp h
    simp only [sortBy, ih h'.2]
    cases as with
    | nil => rfl
    | cons b bs => simp [insertBy, h'.1 b (List.mem_cons_self ..)]

end SortLemmas

theorem sortStrs_perm (l : List Str) : (sortStrs l).Perm l := sortBy_perm l

theorem sortStrs_sorted (l : List Str) : Sorted Str.le (sortStrs l) :=
  sortBy_sorted Str.le_total (fun _ _ _ => Str.le_trans) l

theorem sortStrs_eq_of_perm {l₁ l₂ : List Str} (h : l₁.Perm l₂) : sortStrs l₁ = sortStrs l₂ :=
  sortBy_eq_of_perm Str.le_total (fun _ _ _ => Str.le_trans)
    (fun _ _ _ _ => Str.le_antisymm) h

theorem mem_sortStrs {a : Str} {l : List Str} : a ∈ sortStrs l ↔ a ∈ l := mem_sortBy

/-- Strictly increasing. -/
abbrev StrictSorted (l : List Str) : Prop := l.Pairwise fun a b => Str.lt a b = true

theorem sortStrs_strict {l : List Str} (h : l.Nodup) : StrictSorted (sortStrs l) := by
  have h1 := sortStrs_sorted l
  have h2 : (sortStrs l).Nodup := (sortStrs_perm l).nodup_iff.mpr h
  exact (h1.and h2).imp fun ⟨hle, hne⟩ => (Str.le_iff.mp hle).resolve_right hne

/-- A strictly sorted list is determined by its elements. -/
theorem strictSorted_ext {l₁ l₂ : List Str} (h₁ : StrictSorted l₁) (h₂ : StrictSorted l₂)
    (h : ∀ a, a ∈ l₁ ↔ a ∈ l₂) : l₁ = l₂ := by
  have nd : ∀ {l : List Str}, StrictSorted l → l.Nodup := fun h =>
    h.imp fun hlt he => by subst he; rw [Str.lt_irrefl] at hlt; exact absurd hlt (by decide)
  have hp : l₁.Perm l₂ := (List.perm_ext_iff_of_nodup (nd h₁) (nd h₂)).mpr h
  exact sorted_perm_eq (le := Str.le) (fun _ _ _ _ => Str.le_antisymm)
    (h₁.imp fun h => Str.le_iff.mpr (Or.inl h)) (h₂.imp fun h => Str.le_iff.mpr (Or.inl h)) hp

/-! ## Sets and maps -/

theorem setInsert_nodup {κ : Type} [DecidableEq κ] {m : List κ} (h : m.Nodup) (k : κ) :
    (setInsert m k).Nodup := by
  unfold setInsert
  split
  · exact h
  · rename_i hk
    rw [List.nodup_append]
    refine ⟨h, by simp, ?_⟩
    intro a ha b hb
    simp at hb
    subst hb
    intro he
    subst he
    exact hk ha

theorem mem_setInsert {κ : Type} [DecidableEq κ] {m : List κ} {k a : κ} :
    a ∈ setInsert m k ↔ a ∈ m ∨ a = k := by
  unfold setInsert
  split
  · rename_i hk
    constructor
    · exact Or.inl
    · rintro (h | rfl)
      · exact h
      · exact hk
  · simp

end Verif
