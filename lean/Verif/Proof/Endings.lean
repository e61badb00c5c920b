import Verif.Proof.Grammar
import Verif.Spec.RequestTypes

/-! # Visitors that collect things on the way out -/

namespace Verif.Lint

open Verif Proto Spec

variable {S A : Type}

theorem endingAll_options (around : List Element) (os : List Opt) :
    endingAll around (os.map .option) = os.map fun o => ⟨around, .option o⟩ := by
  induction os with
  | nil => simp [endingAll]
  | cons o os ih => simp [endingAll, ending, ih]

theorem ending_eq (around : List Element) (e : Element) :
    ending around e = endingAll (e :: around) (children e) ++ [⟨around, e⟩] := by
  cases e <;> simp [ending, children, endingAll_options, endingAll]

theorem endingAll_perm (es : List Element) :
    ∀ around, (endingAll around es).Perm (nodesAll around es) := by
  have key : ∀ cs : List Element, (∀ c ∈ cs, ∀ around, (ending around c).Perm (nodes around c)) →
      ∀ around, (endingAll around cs).Perm (nodesAll around cs) := by
    intro cs
    induction cs with
    | nil => intro _ around; rw [endingAll, nodesAll]
    | cons c cs ih =>
      intro h around
      rw [endingAll, nodesAll]
      exact (h c List.mem_cons_self around).append (ih (fun c hc => h c (List.mem_cons_of_mem _ hc)) around)
  refine key es fun c _ => ?_
  refine element_ind (P := fun c => ∀ around, (ending around c).Perm (nodes around c)) ?_ c
  intro e ih around
  rw [ending_eq, nodes_eq]
  exact (List.perm_append_comm).trans ((key _ ih (e :: around)).cons _)

/-- The nodes below `around` that are visited, in the order in which the visits end. -/
def endScope (descend : Element → Bool) (around : List Element) (es : List Element) : List Node :=
  (endingAll around es).filter fun n => n.around.all descend

theorem endScope_perm (descend : Element → Bool) (around es : List Element) :
    (endScope descend around es).Perm (scope descend around es) :=
  (endingAll_perm es around).filter _

theorem endScope_dead {descend : Element → Bool} {around es : List Element}
    (h : around.all descend = false) : endScope descend around es = [] := by
  have := endScope_perm descend around es
  rw [scope_dead h] at this
  exact this.eq_nil

theorem endScope_cons {descend : Element → Bool} {around : List Element} {e : Element}
    {es : List Element} (h : around.all descend = true) :
    endScope descend around (e :: es) =
      ((bif descend e then endScope descend (e :: around) (children e) else []) ++ [⟨around, e⟩]) ++
        endScope descend around es := by
  unfold endScope
  rw [endingAll, ending_eq, List.filter_append, List.filter_append]
  congr 2
  · cases hd : descend e with
    | true => rfl
    | false =>
      exact endScope_dead (descend := descend) (around := e :: around) (es := children e) (by simp [hd])
  · rw [List.filter_cons, if_pos h]; rfl

/-- The state consists of what follows from the surroundings, of the number of fields so far
and of the things collected; `upd` collects at the end of a node. -/
structure Collects (good : Node → Prop) (v : Visitor S) (toS : List Element → Nat → A → S)
    (upd : Node → A → A) (descend : Element → Bool) : Prop where
  step : ∀ around e, good ⟨around, e⟩ → ∀ (k : Act S) (ka : A → A),
    (descend e = true → ∀ c a, k (toS (e :: around) c a) =
      (toS (e :: around) (c + fieldCounts (children e)) (ka a), [])) →
    ∀ c a, visit v (parentOf around) k e (toS around c a) =
      (toS around (c + fieldCount e) (upd ⟨around, e⟩ (bif descend e then ka a else a)), [])

/-- Collecting over a list of nodes. -/
def collectAll (upd : Node → A → A) (ns : List Node) (a : A) : A := ns.foldl (fun a n => upd n a) a

theorem collectAll_append (upd : Node → A → A) (ns ms : List Node) (a : A) :
    collectAll upd (ns ++ ms) a = collectAll upd ms (collectAll upd ns a) := List.foldl_append

theorem Collects.all {good : Node → Prop} {v : Visitor S} {toS : List Element → Nat → A → S}
    {upd : Node → A → A} {descend : Element → Bool} (h : Collects good v toS upd descend)
    (es : List Element) :
    ∀ around, (∀ n ∈ nodesAll around es, good n) → around.all descend = true → ∀ c a,
      acceptAll v (parentOf around) es (toS around c a) =
        (toS around (c + fieldCounts es) (collectAll upd (endScope descend around es) a), []) := by
  have key : ∀ cs : List Element, (∀ e ∈ cs, ∀ around, (∀ n ∈ nodes around e, good n) →
      around.all descend = true → ∀ c a,
      accept v (parentOf around) e (toS around c a) =
        (toS around (c + fieldCount e) (upd ⟨around, e⟩ (bif descend e then
          collectAll upd (endScope descend (e :: around) (children e)) a else a)), [])) →
      ∀ around, (∀ n ∈ nodesAll around cs, good n) → around.all descend = true → ∀ c a,
        acceptAll v (parentOf around) cs (toS around c a) =
          (toS around (c + fieldCounts cs) (collectAll upd (endScope descend around cs) a), []) := by
    intro cs
    induction cs with
    | nil => intro _ around _ _ c a; unfold acceptAll; rfl
    | cons e cs ih =>
      intro hcs around hg ha c a
      rw [nodesAll] at hg
      rw [endScope_cons ha, collectAll_append, collectAll_append, fieldCounts]
      unfold acceptAll Act.seq
      rw [hcs e List.mem_cons_self around (fun n hn => hg n (List.mem_append_left _ hn)) ha]
      dsimp only
      rw [ih (fun c hc => hcs c (List.mem_cons_of_mem _ hc)) around
        (fun n hn => hg n (List.mem_append_right _ hn)) ha, Nat.add_assoc]
      cases hd : descend e <;> rfl
  have one : ∀ e, ∀ around, (∀ n ∈ nodes around e, good n) → around.all descend = true → ∀ c a,
      accept v (parentOf around) e (toS around c a) =
        (toS around (c + fieldCount e) (upd ⟨around, e⟩ (bif descend e then
          collectAll upd (endScope descend (e :: around) (children e)) a else a)), []) := by
    refine element_ind ?_
    intro e ih around hg ha c a
    rw [nodes_eq] at hg
    rw [accept_eq v (parentOf around) e around]
    refine h.step around e (hg _ List.mem_cons_self) _ _ (fun hd c a => ?_) c a
    exact key _ ih (e :: around) (fun n hn => hg n (List.mem_cons_of_mem _ hn)) (by simp [hd, ha]) c a
  exact key es fun c _ => one c

end Verif.Lint
