import Verif.Spec.Extension
import Verif.Spec.Breaking

/-! # Growing schemas are compatible -/

namespace Verif.Proof.Breaking

open Verif Reflect Spec

theorem grows_mem {α : Type} {K : α → α → Prop} {N : α → Prop} {l l' : List α} (h : Grows K N l l')
    {a : α} (ha : a ∈ l) : ∃ a' ∈ l', K a a' := by
  induction h with
  | nil => cases ha
  | keep hk _ ih =>
    rcases List.mem_cons.1 ha with rfl | ha
    · exact ⟨_, by simp, hk⟩
    · obtain ⟨b, hb, h⟩ := ih ha
      exact ⟨b, by simp [hb], h⟩
  | add _ _ ih =>
    obtain ⟨b, hb, h⟩ := ih ha
    exact ⟨b, by simp [hb], h⟩

theorem messagesGrow_mem {l l' : List Message} (h : MessagesGrow l l') {m : Message} (hm : m ∈ l) :
    ∃ m' ∈ l', MessageGrows m m' := by
  induction l' generalizing l with
  | nil => cases h; cases hm
  | cons b l' ih =>
    cases h with
    | keep hk h =>
      rcases List.mem_cons.1 hm with rfl | hm
      · exact ⟨_, by simp, hk⟩
      · obtain ⟨m', hm', hg⟩ := ih h hm
        exact ⟨m', by simp [hm'], hg⟩
    | add h =>
      obtain ⟨m', hm', hg⟩ := ih h hm
      exact ⟨m', by simp [hm'], hg⟩

theorem messageGrows_name {m m' : Message} (h : MessageGrows m m') : m'.name = m.name := by
  cases h; rfl

theorem messageGrows_nested {m m' : Message} (h : MessageGrows m m') :
    MessagesGrow m.nestedMessages m'.nestedMessages := by
  cases h; assumption

theorem messagesGrow_at {l l' : List Message} (h : MessagesGrow l l') {path : List Str} {m : Message}
    (hm : MessageAt l path m) : ∃ m', MessageAt l' path m' ∧ MessageGrows m m' := by
  induction hm generalizing l' with
  | here hm =>
    obtain ⟨m', hm', hg⟩ := messagesGrow_mem h hm
    exact ⟨m', messageGrows_name hg ▸ .here hm', hg⟩
  | inside hm _ ih =>
    obtain ⟨m', hm', hg⟩ := messagesGrow_mem h hm
    obtain ⟨n', hn', hg'⟩ := ih (messageGrows_nested hg)
    exact ⟨n', messageGrows_name hg ▸ .inside hm' hn', hg'⟩

theorem enumGrows_kept {e e' : Enum} (h : EnumGrows e e') : EnumKept e e' := by
  intro n name hk
  obtain ⟨v0, hv0, hv0n⟩ : ∃ u ∈ e.values, u.number = n := by
    unfold knownAs at hk
    cases hf : (e.values.filter fun v => decide (v.number = n)).getLast? with
    | none => rw [hf] at hk; cases hk
    | some v =>
      have := List.mem_of_getLast? hf
      obtain ⟨h1, h2⟩ := List.mem_filter.1 this
      exact ⟨v, h1, by simpa using h2⟩
  have : ∀ {l l'}, Grows Eq (fun v : EnumValue => ∀ u ∈ e.values, v.number ≠ u.number) l l' →
      (l'.filter fun v => decide (v.number = n)) = l.filter fun v => decide (v.number = n) := by
    intro l l' hg
    induction hg with
    | nil => rfl
    | keep hk _ ih => subst hk; simp only [List.filter_cons, ih]
    | add hnew _ ih =>
      rw [List.filter_cons_of_neg, ih]
      simp only [decide_eq_true_eq]
      rintro rfl
      exact hnew v0 hv0 hv0n.symm
  unfold knownAs at hk ⊢
  rw [this h.values]
  exact hk

theorem grows_eq_mem {N : Int → Prop} {l l' : List Int} (h : Grows Eq N l l') {n : Int} (hn : ¬ N n) :
    n ∈ l' ↔ n ∈ l := by
  induction h with
  | nil => rfl
  | keep hk _ ih => subst hk; simp [ih]
  | add hnew _ ih =>
    rw [List.mem_cons, ih]
    constructor
    · rintro (rfl | h)
      · exact absurd hnew hn
      · exact h
    · exact .inr

theorem messageGrows_kept {m m' : Message} (h : MessageGrows m m') : MessageKept m m' := by
  cases h with
  | @mk name nested nested' enums enums' fields fields' oneofs oneofs' _ _ hf ho =>
    refine ⟨?_, ?_⟩
    · intro f hfm
      change f ∈ fields at hfm
      obtain ⟨f', hf', rfl⟩ := grows_mem hf hfm
      refine ⟨f, hf', ⟨rfl, rfl, rfl, rfl, fun _ => rfl⟩, ?_⟩
      have hu : ¬ ¬ UsedBy fields f.number := fun h => h ⟨f, hfm, rfl⟩
      have : ∀ {l l'}, Grows (OneofGrows fields) (fun w => ∀ n ∈ w.fieldNumbers, ¬ UsedBy fields n) l l' →
          (l'.find? fun w => decide (f.number ∈ w.fieldNumbers)).map (·.name) =
            (l.find? fun w => decide (f.number ∈ w.fieldNumbers)).map (·.name) := by
        intro l l' hg
        induction hg with
        | nil => rfl
        | @keep w w' _ _ hk _ ih =>
          have hiff := grows_eq_mem hk.numbers hu
          by_cases hw : f.number ∈ w.fieldNumbers
          · rw [List.find?_cons_of_pos (by simpa using hiff.2 hw),
              List.find?_cons_of_pos (by simpa using hw)]
            simp [hk.name]
          · rw [List.find?_cons_of_neg (by simpa using fun h => hw (hiff.1 h)),
              List.find?_cons_of_neg (by simpa using hw)]
            exact ih
        | @add w _ _ hnew _ ih =>
          rw [List.find?_cons_of_neg, ih]
          simp only [decide_eq_true_eq]
          exact fun hmem => hu (hnew _ hmem)
      exact this ho
    · intro w hw
      obtain ⟨w', hw', hg⟩ := grows_mem ho hw
      exact ⟨w', hw', hg.name⟩

theorem messageGrows_enums {m m' : Message} (h : MessageGrows m m') :
    Grows EnumGrows (fun _ => True) m.nestedEnums m'.nestedEnums := by
  cases h; assumption

theorem packageGrows_kept {p q : Package} (h : PackageGrows p q) : PackageKept p q := by
  refine ⟨?_, ?_, ?_⟩
  · intro path m hm
    obtain ⟨m', hm', hg⟩ := messagesGrow_at h.messages hm
    exact ⟨m', hm', messageGrows_kept hg⟩
  · intro scope e he
    cases he with
    | top he =>
      obtain ⟨e', he', hg⟩ := grows_mem h.enums he
      exact ⟨e', .top he', hg.name, enumGrows_kept hg⟩
    | nested hm he =>
      obtain ⟨m', hm', hg⟩ := messagesGrow_at h.messages hm
      obtain ⟨e', he', hg'⟩ := grows_mem (messageGrows_enums hg) he
      exact ⟨e', .nested hm' he', hg'.name, enumGrows_kept hg'⟩
  · intro s hs
    obtain ⟨s', hs', hg⟩ := grows_mem h.services hs
    refine ⟨s', hs', hg.name, ?_⟩
    intro m hm
    obtain ⟨m', hm', rfl⟩ := grows_mem hg.methods hm
    exact hm'

theorem schemaGrows_compatible {old new : PackageSet} (h : SchemaGrows old new) (scope : Str → Prop) :
    Compatible scope old new := by
  intro p hp _
  obtain ⟨q, hq, hg⟩ := grows_mem h hp
  exact ⟨q, hq, hg.name, packageGrows_kept hg⟩

end Verif.Proof.Breaking
