import Verif.Spec.Schema

/-!
# Deciding that a concrete schema is well formed

Used only for the concrete cases beside the theorems.
-/

namespace Verif.Spec

open Verif Reflect

/-- `MessageOK`, decided. -/
def messageCheck (m : Message) : Bool :=
  decide (m.nestedMessages.map Message.name).Nodup &&
  decide (m.nestedEnums.map (·.name)).Nodup &&
  decide (m.fields.map (·.number)).Nodup &&
  decide (m.oneofs.map (·.name)).Nodup &&
  m.oneofs.all (fun w => w.fieldNumbers.all fun n => m.fields.any fun f => decide (f.number = n)) &&
  m.oneofs.all (fun w => m.oneofs.all fun w' => w.fieldNumbers.all fun n =>
    decide (n ∈ w'.fieldNumbers → w = w')) &&
  m.fields.all (fun f => decide (1 ≤ f.label ∧ f.label ≤ 3) && decide (1 ≤ f.type ∧ f.type ≤ 18) &&
    decide (f.type = 10 ∨ f.type = 11 ∨ f.type = 14 → f.typeName ≠ []))

mutual
/-- `MessageOK` for the message and all nested ones. -/
def treeCheck : Message → Bool
  | .mk name nested enums fields oneofs =>
    messageCheck (.mk name nested enums fields oneofs) && treesCheck nested
/-- `MessageOK` for all messages and nested ones. -/
def treesCheck : List Message → Bool
  | [] => true
  | m :: ms => treeCheck m && treesCheck ms
end

/-- `SchemaOK`, decided. -/
def schemaCheck (ps : PackageSet) : Bool :=
  decide (ps.map (·.name)).Nodup &&
  ps.all (fun p => decide (p.name ≠ []) && decide (p.messages.map Message.name).Nodup &&
    treesCheck p.messages && decide (p.enums.map (·.name)).Nodup &&
    decide (p.services.map (·.name)).Nodup && p.services.all fun s => decide (s.methods.map (·.name)).Nodup) &&
  ps.all (fun p => p.dependencyNames.all fun d => ps.any fun q => decide (q.name = d))

theorem messageOK_of_check {m : Message} (h : messageCheck m = true) : MessageOK m := by
  simp only [messageCheck, Bool.and_eq_true, decide_eq_true_eq, List.all_eq_true, List.any_eq_true] at h
  obtain ⟨⟨⟨⟨⟨⟨h1, h2⟩, h3⟩, h4⟩, h5⟩, h6⟩, h7⟩ := h
  exact ⟨h1, h2, h3, h4, h5, h6, fun f hf => (h7 f hf).1.1, fun f hf => (h7 f hf).1.2,
    fun f hf => (h7 f hf).2⟩

theorem treesCheck_mem {ms : List Message} (h : treesCheck ms = true) {m : Message} (hm : m ∈ ms) :
    treeCheck m = true := by
  induction ms with
  | nil => cases hm
  | cons a ms ih =>
    rw [treesCheck, Bool.and_eq_true] at h
    rcases List.mem_cons.1 hm with rfl | hm
    · exact h.1
    · exact ih h.2 hm

theorem messageOK_of_trees {ms : List Message} (h : treesCheck ms = true) {path : List Str} {m : Message}
    (hm : MessageAt ms path m) : MessageOK m := by
  induction hm with
  | here hm =>
    have := treesCheck_mem h hm
    rename_i m
    cases m
    rw [treeCheck, Bool.and_eq_true] at this
    exact messageOK_of_check this.1
  | inside hm _ ih =>
    have := treesCheck_mem h hm
    rename_i m _ _ _
    cases m
    rw [treeCheck, Bool.and_eq_true] at this
    exact ih this.2

theorem schemaOK_of_check {ps : PackageSet} (h : schemaCheck ps = true) : SchemaOK ps := by
  simp only [schemaCheck, Bool.and_eq_true, decide_eq_true_eq, List.all_eq_true, List.any_eq_true] at h
  obtain ⟨⟨h1, h2⟩, h3⟩ := h
  refine ⟨h1, ?_, h3⟩
  intro p hp
  obtain ⟨⟨⟨⟨⟨a, b⟩, c⟩, d⟩, e⟩, f⟩ := h2 p hp
  exact ⟨a, b, fun path m hm => messageOK_of_trees c hm, d, e, f⟩

end Verif.Spec
