import Verif.Go.TabWriter
import Verif.Proof.LintIDs
import Verif.Spec.Listing

/-!
# Lemmas for the listings of lint rules
-/

namespace Verif.Lint

open Verif Spec

set_option maxRecDepth 100000 in
/-- Every linter has the purpose and the annotation of the specification. -/
theorem allLinters_texts (env : Env) :
    (allLinters env).map (fun l => (l.purpose, l.suppressableAnnotation)) =
      allIDs.map fun id => ((rulePurposes.lookup id).getD [], (ruleAnnotations.lookup id).getD []) := rfl

theorem annotation_ne : ∀ id ∈ allIDs, ruleAnnotations.lookup id ≠ some [] := by decide +kernel

theorem texts_of_mem {env : Env} {l : Linter} (hl : l ∈ allLinters env) :
    l.id ∈ allIDs ∧ l.purpose = (rulePurposes.lookup l.id).getD [] ∧
      l.suppressableAnnotation = (ruleAnnotations.lookup l.id).getD [] := by
  obtain ⟨i, hi, rfl⟩ := List.getElem_of_mem hl
  have h1 := congrArg (·[i]?) (allLinters_ids env)
  have h2 := congrArg (·[i]?) (allLinters_texts env)
  simp only [List.getElem?_map, List.getElem?_eq_getElem hi, Option.map_some] at h1 h2
  rw [← h1, Option.map_some, Option.some.injEq, Prod.mk.injEq] at h2
  refine ⟨?_, h2⟩
  exact List.mem_of_getElem? h1.symm

/-- What a linter says it is for. -/
theorem purposeIn_eq {env : Env} {l : Linter} (hl : l ∈ allLinters env) (c : Settings.LintConfig) :
    l.purposeIn c = described c l.id := by
  obtain ⟨h0, h1, h2⟩ := texts_of_mem hl
  have h3 := annotation_ne _ h0
  unfold Linter.purposeIn described describedWith suppressHint rulePurpose
  rw [h1, h2]
  cases h : ruleAnnotations.lookup l.id with
  | none => simp
  | some word =>
    rw [h] at h3
    have : word ≠ [] := fun e => h3 (by rw [e])
    by_cases hc : c.allowSuppression = true <;> simp [this, hc]

end Verif.Lint

namespace Verif.Proof.Listing

open Verif Spec TabWriter

/-- Two blanks end the first cell. -/
theorem cells_append {a b : Str} (ha : a.getLast? ≠ some ' ') (hd : ¬[' ', ' '] <:+: a)
    (hb : b.head? ≠ some ' ') (n : Nat) : cells (a ++ List.replicate (n + 2) ' ' ++ b) = (a, b) := by
  induction a with
  | nil =>
    show cells (' ' :: ' ' :: (List.replicate n ' ' ++ b)) = _
    rw [cells, if_pos ⟨rfl, rfl⟩]
    congr 1
    rw [List.dropWhile_append_of_pos (by simp)]
    cases b with
    | nil => rfl
    | cons x y => rw [List.dropWhile_cons_of_neg]; simpa using hb
  | cons x y ih =>
    have hd' : ¬[' ', ' '] <:+: y := fun h => hd (h.trans (List.suffix_cons x y).isInfix)
    cases y with
    | nil =>
      have hx : x ≠ ' ' := fun e => ha (by rw [e]; rfl)
      have := ih (by simp) hd'
      show cells (x :: ' ' :: (List.replicate (n + 1) ' ' ++ b)) = _
      rw [cells, if_neg (fun h => hx h.1)]
      have e : (' ' :: (List.replicate (n + 1) ' ' ++ b)) = [] ++ List.replicate (n + 2) ' ' ++ b := rfl
      rw [e, this]
    | cons z t =>
      have hx : ¬(x = ' ' ∧ z = ' ') := by
        rintro ⟨rfl, rfl⟩
        exact hd ⟨[], t, rfl⟩
      have := ih (by rwa [List.getLast?_cons_cons] at ha) hd'
      show cells (x :: z :: (t ++ List.replicate (n + 2) ' ' ++ b)) = _
      rw [cells, if_neg hx]
      have e : z :: (t ++ List.replicate (n + 2) ' ' ++ b) = z :: t ++ List.replicate (n + 2) ' ' ++ b := rfl
      rw [e, this]

theorem listedLines_line {l : Str} (h : '\n' ∉ l) (rest : Str) :
    listedLines (l ++ s%"\n" ++ rest) = l :: listedLines rest := by
  induction l with
  | nil => simp [listedLines]
  | cons x y ih =>
    have hx : x ≠ '\n' := fun e => h (by simp [e])
    show listedLines (x :: (y ++ s%"\n" ++ rest)) = _
    rw [listedLines, if_neg hx, ih fun hm => h (by simp [hm])]

theorem listedLines_lines (ls : List Str) (h : ∀ l ∈ ls, '\n' ∉ l) :
    listedLines (ls.flatMap (· ++ s%"\n")) = ls := by
  induction ls with
  | nil => rfl
  | cons x y ih =>
    rw [List.flatMap_cons, listedLines_line (h x (by simp)), ih fun l hl => h l (by simp [hl])]

theorem width_le {rows : List (Str × Str)} {row : Str × Str} (h : row ∈ rows) :
    row.1.length + 2 ≤ width rows := by
  unfold width
  refine Nat.add_le_add_right ?_ 2
  induction rows with
  | nil => cases h
  | cons x y ih =>
    rcases List.mem_cons.1 h with rfl | h
    · exact Nat.le_max_left ..
    · exact Nat.le_trans (ih h) (Nat.le_max_right ..)

/-- A reader of the table gets the rows back. -/
theorem readListing_table (rows : List (Str × Str)) (h1 : ∀ row ∈ rows, PlainCell row.1)
    (h2 : ∀ row ∈ rows, row.2.head? ≠ some ' ' ∧ '\n' ∉ row.2) :
    readListing (table rows) = rows := by
  unfold readListing table
  have : (rows.flatMap fun row => row.1 ++ List.replicate (width rows - row.1.length) ' ' ++ row.2 ++ s%"\n")
      = (rows.map fun row => row.1 ++ List.replicate (width rows - row.1.length) ' ' ++ row.2).flatMap
          (· ++ s%"\n") := by
    rw [List.flatMap_map]
  rw [this, listedLines_lines]
  · rw [List.map_map]
    refine (List.map_congr_left fun row hr => ?_).trans (List.map_id rows)
    obtain ⟨_, _, g2, g3, _⟩ := h1 row hr
    have hw := width_le hr
    have e : width rows - row.1.length = (width rows - row.1.length - 2) + 2 := by omega
    show cells (row.1 ++ List.replicate (width rows - row.1.length) ' ' ++ row.2) = _
    rw [e, cells_append g2 g3 (h2 row hr).1]
    rfl
  · intro l hl
    obtain ⟨row, hr, rfl⟩ := List.mem_map.1 hl
    simp only [List.mem_append, not_or]
    refine ⟨⟨(h1 row hr).2.2.2.2, fun hm => ?_⟩, (h2 row hr).2⟩
    have := (List.mem_replicate.1 hm).2
    cases this

end Verif.Proof.Listing
