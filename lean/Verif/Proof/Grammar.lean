import Verif.Proof.Walks
import Verif.Spec.Grammar

/-! # Where the elements of a grammatical file are -/

namespace Verif.Lint

open Verif Proto Spec

theorem nodesAll_mem {around : List Element} {es : List Element} {n : Node} :
    n ∈ nodesAll around es ↔ ∃ e ∈ es, n ∈ nodes around e := by
  induction es with
  | nil => simp [nodesAll]
  | cons e es ih => simp [nodesAll, ih]

/-- A property of surroundings that is kept by going into a node holds everywhere. -/
theorem around_ind {P : Node → Prop}
    (h : ∀ n, P n → ∀ c ∈ children n.self, P ⟨n.self :: n.around, c⟩) (e : Element) :
    ∀ around, P ⟨around, e⟩ → ∀ n ∈ nodes around e, P n := by
  refine element_ind (P := fun e => ∀ around, P ⟨around, e⟩ → ∀ n ∈ nodes around e, P n) ?_ e
  intro e ih around hp n hn
  rw [nodes_eq] at hn
  rcases List.mem_cons.1 hn with rfl | hn
  · exact hp
  · obtain ⟨c, hc, hn⟩ := nodesAll_mem.1 hn
    exact ih c hc _ (h _ hp c hc) n hn

theorem fileNodes_ind {P : Node → Prop} {d : FileDescriptor}
    (h0 : ∀ e ∈ d.elements, P ⟨[], e⟩)
    (h : ∀ n, P n → ∀ c ∈ children n.self, P ⟨n.self :: n.around, c⟩) :
    ∀ n ∈ fileNodes d, P n := by
  intro n hn
  obtain ⟨e, he, hn⟩ := nodesAll_mem.1 hn
  exact around_ind h e [] (h0 e he) n hn

theorem self_mem (around : List Element) (e : Element) : ⟨around, e⟩ ∈ nodes around e := by
  rw [nodes_eq]; exact List.mem_cons_self

/-- The surroundings of a node, as a node. -/
theorem child_mem (e : Element) :
    ∀ around, ∀ n ∈ nodes around e, ∀ c ∈ children n.self, ⟨n.self :: n.around, c⟩ ∈ nodes around e := by
  refine element_ind (P := fun e => ∀ around, ∀ n ∈ nodes around e, ∀ c ∈ children n.self,
    (⟨n.self :: n.around, c⟩ : Node) ∈ nodes around e) ?_ e
  intro e ih around n hn c hc
  rw [nodes_eq] at hn ⊢
  rcases List.mem_cons.1 hn with rfl | hn
  · exact List.mem_cons_of_mem _ (nodesAll_mem.2 ⟨c, hc, self_mem _ _⟩)
  · obtain ⟨c', hc', hn⟩ := nodesAll_mem.1 hn
    exact List.mem_cons_of_mem _ (nodesAll_mem.2 ⟨c', hc', ih c' hc' _ n hn c hc⟩)

theorem fileNodes_child {d : FileDescriptor} {n : Node} (hn : n ∈ fileNodes d) {c : Element}
    (hc : c ∈ children n.self) : ⟨n.self :: n.around, c⟩ ∈ fileNodes d := by
  obtain ⟨e, he, hn⟩ := nodesAll_mem.1 hn
  exact nodesAll_mem.2 ⟨e, he, child_mem e [] n hn c hc⟩

/-- Strong form of `fileNodes_ind`. -/
theorem fileNodes_ind' {P : Node → Prop} {d : FileDescriptor}
    (h0 : ∀ e ∈ d.elements, P ⟨[], e⟩)
    (h : ∀ n ∈ fileNodes d, P n → ∀ c ∈ children n.self, P ⟨n.self :: n.around, c⟩) :
    ∀ n ∈ fileNodes d, P n := by
  intro n hn
  refine (fileNodes_ind (P := fun n => n ∈ fileNodes d ∧ P n) (fun e he => ⟨?_, h0 e he⟩)
    (fun n hn c hc => ⟨fileNodes_child hn.1 hc, h n hn.1 hn.2 c hc⟩) n hn).2
  exact nodesAll_mem.2 ⟨e, he, self_mem _ _⟩

/-- If certain nodes are only in nodes of some kind, which are such nodes as well, then all
that is around them is of that kind. -/
theorem around_kind {d : FileDescriptor} {kind : Element → Bool} {ok : Node → Prop}
    (hok : ∀ n ∈ fileNodes d, ∀ c, ⟨n.self :: n.around, c⟩ ∈ fileNodes d →
      ok ⟨n.self :: n.around, c⟩ → kind n.self = true)
    (hkind : ∀ n ∈ fileNodes d, kind n.self = true → ok n) :
    ∀ n ∈ fileNodes d, ok n → n.around.all kind = true := by
  have key : ∀ n ∈ fileNodes d, (ok n → n.around.all kind = true) := by
    refine fileNodes_ind' (fun _ _ _ => rfl) ?_
    intro n hn hp c hc hk
    have h1 := hok n hn c (fileNodes_child hn hc) hk
    show (n.self :: n.around).all kind = true
    rw [List.all_cons, h1, hp (hkind n hn h1)]; rfl
  exact key

theorem filterMap_filter_of {α β : Type} {f : α → Option β} {p : α → Bool} {l : List α}
    (h : ∀ a ∈ l, (f a).isSome = true → p a = true) : (l.filter p).filterMap f = l.filterMap f := by
  induction l with
  | nil => rfl
  | cons a l ih =>
    have ih' := ih fun a ha => h a (List.mem_cons_of_mem _ ha)
    rw [List.filter_cons]
    split
    · rw [List.filterMap_cons, List.filterMap_cons, ih']
    · rename_i hp
      rw [ih']
      cases hf : f a with
      | none => rw [List.filterMap_cons_none hf]
      | some b => exact absurd (h a List.mem_cons_self (by rw [hf]; rfl)) hp

/-- All things picked are inside nodes of the kind. -/
theorem inside_all {α : Type} {d : FileDescriptor} {kind : Element → Bool} {pick : Node → Option α}
    (hok : ∀ n ∈ fileNodes d, ∀ c, ⟨n.self :: n.around, c⟩ ∈ fileNodes d →
      ((pick ⟨n.self :: n.around, c⟩).isSome = true ∨ kind c = true) → kind n.self = true) :
    (inside kind d).filterMap pick = (fileNodes d).filterMap pick := by
  refine filterMap_filter_of fun n hn hp => ?_
  exact around_kind (ok := fun n => (pick n).isSome = true ∨ kind n.self = true) hok
    (fun _ _ h => .inr h) n hn (.inl hp)

/-- The same from the grammar. -/
theorem inside_grammar {α : Type} {d : FileDescriptor} (hg : Grammatical d) (hn : NoGroups d)
    {kind : Element → Bool} {pick : Node → Option α}
    (h : ∀ around self c, mayBeIn (self :: around) c = true → isGroup self = false →
      ((pick ⟨self :: around, c⟩).isSome || kind c) = true → kind self = true) :
    (inside kind d).filterMap pick = (fileNodes d).filterMap pick :=
  inside_all fun n hmem c hc hp => h n.around n.self c (hg _ hc) (hn n hmem) (by
    rw [Bool.or_eq_true]; exact hp)

/-- Goes through the kinds of nodes. -/
macro "by_kinds" : tactic =>
  `(tactic| (
    intro around self c
    cases self <;> cases c <;> intro h1 h2 h3 <;> 
      first
        | rfl
        | exact absurd h1 Bool.false_ne_true
        | exact absurd h3 Bool.false_ne_true
        | exact absurd h2.symm Bool.false_ne_true))

end Verif.Lint
