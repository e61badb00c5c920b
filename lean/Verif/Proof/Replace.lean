import Verif.Proof.Split
import Verif.Spec.LintSays

/-! # Replacing text -/

namespace Verif.Lint

open Verif Spec Str

theorem splitGo_head_prefix (sep : Str) : ∀ (s : Str) (k : Nat) (w : Str) (ws : List Str),
    splitGo sep k s = w :: ws → w <+: s.drop k
  | [], k, w, ws, h => by
    simp only [splitGo, List.cons.injEq] at h
    rw [← h.1]
    exact List.nil_prefix
  | x :: xs, k + 1, w, ws, h => by
    simp only [splitGo] at h
    exact splitGo_head_prefix sep xs k w ws h
  | x :: xs, 0, w, ws, h => by
    simp only [splitGo] at h
    split at h
    · cases h
      exact List.nil_prefix
    · cases hr : splitGo sep 0 xs with
      | nil => exact absurd hr (splitGo_ne_nil _ _ _)
      | cons v vs =>
        rw [hr] at h
        cases h
        have := splitGo_head_prefix sep xs 0 v _ hr
        rw [List.drop_zero] at this ⊢
        exact List.cons_prefix_cons.2 ⟨rfl, this⟩

/-- The pieces of a split do not have the separator in them. -/
theorem splitGo_pieces (sep : Str) (hsep : sep ≠ []) : ∀ (s : Str) (k : Nat),
    ∀ w ∈ splitGo sep k s, ¬ sep <:+: w
  | [], k, w, hw, hi => by
    simp only [splitGo, List.mem_singleton] at hw
    rw [hw] at hi
    exact hsep (List.infix_nil.1 hi)
  | x :: xs, k + 1, w, hw, hi => by
    simp only [splitGo] at hw
    exact splitGo_pieces sep hsep xs k w hw hi
  | x :: xs, 0, w, hw, hi => by
    simp only [splitGo] at hw
    split at hw
    · rcases List.mem_cons.1 hw with h | h
      · rw [h] at hi
        exact hsep (List.infix_nil.1 hi)
      · exact splitGo_pieces sep hsep xs _ w h hi
    · rename_i hno
      cases hr : splitGo sep 0 xs with
      | nil => exact absurd hr (splitGo_ne_nil _ _ _)
      | cons v vs =>
        rw [hr] at hw
        rcases List.mem_cons.1 hw with h | h
        · subst h
          rcases List.infix_cons_iff.1 hi with hp | hp
          · have hv := splitGo_head_prefix sep xs 0 v vs hr
            rw [List.drop_zero] at hv
            refine hno (List.isPrefixOf_iff_prefix.2 (hp.trans ?_))
            exact List.cons_prefix_cons.2 ⟨rfl, hv⟩
          · exact splitGo_pieces sep hsep xs 0 v (by rw [hr]; exact List.mem_cons_self) hp
        · exact splitGo_pieces sep hsep xs 0 w (by rw [hr]; exact List.mem_cons_of_mem _ h) hi

theorem replaced {old : Str} (h : old ≠ []) (new s : Str) :
    Replaced old new s (replaceAll s old new) :=
  ⟨splitStr old s, (join_splitStr h s).symm, rfl, splitGo_pieces old h s 0⟩

/-- A text that begins with a letter that is nowhere else in it. -/
structure Fresh (c : Char) (t : Str) : Prop where
  head : ∃ r, t = c :: r ∧ c ∉ r

/-- If `old` and `new` begin with a letter that is nowhere else in them and neither begins with
the other, then putting `new` between pieces without `old` makes no `old`. -/
theorem join_clean {c : Char} {old new : Str} (ho : Fresh c old) (hn : Fresh c new)
    (h1 : ¬ old <+: new) (h2 : ¬ new <+: old) :
    ∀ pieces : List Str, (∀ w ∈ pieces, ¬ old <:+: w) → ¬ old <:+: join new pieces
  | [], _, hi => by
    obtain ⟨r, rfl, _⟩ := ho.head
    exact absurd (List.infix_nil.1 hi) (by simp)
  | [w], h, hi => h w List.mem_cons_self hi
  | w :: v :: ws, h, hi => by
    have ih := join_clean ho hn h1 h2 (v :: ws) fun u hu => h u (List.mem_cons_of_mem _ hu)
    have hj : join new (w :: v :: ws) = w ++ (new ++ join new (v :: ws)) := by
      simp [join, List.append_assoc]
    rw [hj] at hi
    generalize join new (v :: ws) = rest at hi ih
    have hw := h w List.mem_cons_self
    clear h hj
    -- move the front of the text away letter by letter
    induction w with
    | nil =>
      rw [List.nil_append] at hi
      obtain ⟨a, b, hab⟩ := hi
      rw [List.append_assoc] at hab
      rcases List.append_eq_append_iff.1 hab with ⟨t, ht, ht'⟩ | ⟨t, ht, ht'⟩
      · -- `a` ends inside `new`
        obtain ⟨r, hr, hcr⟩ := hn.head
        obtain ⟨q, hq, hcq⟩ := ho.head
        cases a with
        | nil =>
          rw [List.nil_append] at ht
          subst ht
          rcases List.prefix_or_prefix_of_prefix (⟨b, ht'⟩ : old <+: new ++ rest)
            (⟨rest, rfl⟩ : new <+: new ++ rest) with h | h
          · exact h1 h
          · exact h2 h
        | cons x a =>
          rw [hr, List.cons_append, List.cons.injEq] at ht
          have htr : t <:+ r := ⟨a, ht.2.symm⟩
          cases t with
          | nil =>
            rw [List.nil_append] at ht'
            exact ih ⟨[], b, ht'⟩
          | cons y t =>
            rw [hq, List.cons_append, List.cons_append, List.cons.injEq] at ht'
            exact hcr (htr.subset (by rw [← ht'.1]; exact List.mem_cons_self))
      · exact ih ⟨t, b, by rw [ht', List.append_assoc]⟩
    | cons x w ihw =>
      rcases List.infix_cons_iff.1 (by rwa [List.cons_append] at hi) with hp | hp
      · -- `old` begins here and reaches into `new`
        obtain ⟨r, hr, hcr⟩ := hn.head
        obtain ⟨q, hq, hcq⟩ := ho.head
        have hp' : old <+: (x :: w) ++ (new ++ rest) := hp
        rcases List.prefix_or_prefix_of_prefix hp' (⟨_, rfl⟩ : (x :: w) <+: (x :: w) ++ (new ++ rest))
          with h | h
        · exact hw h.isInfix
        · obtain ⟨u, hu⟩ := h
          obtain ⟨b, hb⟩ := hp'
          rw [← hu, List.append_assoc] at hb
          have hb' := List.append_cancel_left hb
          rw [hq, List.cons_append, List.cons.injEq] at hu
          cases u with
          | nil => exact hw (by rw [hq, ← hu.1, ← hu.2, List.append_nil]; exact List.infix_refl _)
          | cons y u =>
            rw [hr, List.cons_append, List.cons_append, List.cons.injEq] at hb'
            refine hcq ?_
            rw [← hu.2, hb'.1]
            simp
      · exact ihw hp fun hi => hw (hi.trans (List.suffix_cons x w).isInfix)

end Verif.Lint
