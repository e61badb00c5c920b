import Verif.Spec.Wire

/-!
# Deciding that the names of a concrete schema are linked

Used only for the concrete cases beside the theorems.
-/

namespace Verif.Spec.Encoded

open Verif Reflect Spec

mutual
/-- The message and those nested in it, with their paths. -/
def pathsOf : Message → List (List Str × Message)
  | .mk name nested enums fields oneofs =>
    ([name], .mk name nested enums fields oneofs) ::
      (pathsOfAll nested).map fun x => (name :: x.1, x.2)
/-- The messages and those nested in them, with their paths. -/
def pathsOfAll : List Message → List (List Str × Message)
  | [] => []
  | m :: ms => pathsOf m ++ pathsOfAll ms
end

theorem pathsOf_mem {ms : List Message} {m : Message} (hm : m ∈ ms) {x : List Str × Message}
    (hx : x ∈ pathsOf m) : x ∈ pathsOfAll ms := by
  induction ms with
  | nil => cases hm
  | cons a ms ih =>
    rw [pathsOfAll, List.mem_append]
    rcases List.mem_cons.1 hm with rfl | hm
    · exact .inl hx
    · exact .inr (ih hm)

theorem messageAt_mem {ms : List Message} {path : List Str} {m : Message} (h : MessageAt ms path m) :
    (path, m) ∈ pathsOfAll ms := by
  induction h with
  | @here ms m hm =>
    refine pathsOf_mem hm ?_
    cases m
    rw [pathsOf]
    exact List.mem_cons_self
  | @inside ms m path n hm _ ih =>
    refine pathsOf_mem hm ?_
    cases m
    rw [pathsOf]
    exact List.mem_cons_of_mem _ (List.mem_map.2 ⟨_, ih, rfl⟩)

/-- The messages of the schema with their full names. -/
def messagesOf (ps : PackageSet) : List (Str × Message) :=
  ps.flatMap fun p => (pathsOfAll p.messages).map fun x => (fullName p.name x.1, x.2)

/-- The enums of the schema with their full names. -/
def enumsOf (ps : PackageSet) : List (Str × Enum) :=
  ps.flatMap fun p => (p.enums.map fun e => (fullName p.name [e.name], e)) ++
    (pathsOfAll p.messages).flatMap fun x => x.2.nestedEnums.map fun e => (fullName p.name (x.1 ++ [e.name]), e)

theorem declaresMessage_mem {ps : PackageSet} {package name : Str} {m : Message}
    (h : DeclaresMessage ps package name m) : (name, m) ∈ messagesOf ps := by
  obtain ⟨p, hp, _, path, hm, rfl⟩ := h
  exact List.mem_flatMap.2 ⟨p, hp, List.mem_map.2 ⟨_, messageAt_mem hm, rfl⟩⟩

theorem declaresEnum_mem {ps : PackageSet} {package name : Str} {e : Enum}
    (h : DeclaresEnum ps package name e) : (name, e) ∈ enumsOf ps := by
  obtain ⟨p, hp, _, path, he, rfl⟩ := h
  refine List.mem_flatMap.2 ⟨p, hp, List.mem_append.2 ?_⟩
  cases he with
  | top he => exact .inl (List.mem_map.2 ⟨e, he, rfl⟩)
  | nested hm he => exact .inr (List.mem_flatMap.2 ⟨_, messageAt_mem hm, List.mem_map.2 ⟨e, he, rfl⟩⟩)

mutual
theorem messageAt_of_mem {m : Message} {path : List Str} {n : Message} (h : (path, n) ∈ pathsOf m) :
    ∀ {ms}, m ∈ ms → MessageAt ms path n := by
  intro ms hm
  match m, h with
  | .mk name nested enums fields oneofs, h =>
    rw [pathsOf, List.mem_cons] at h
    rcases h with h | h
    · cases h
      exact .here hm
    · obtain ⟨⟨path', n'⟩, hx, he⟩ := List.mem_map.1 h
      cases he
      exact .inside (m := .mk name nested enums fields oneofs) hm (messageAt_of_mems hx)
theorem messageAt_of_mems {ms : List Message} {path : List Str} {n : Message} (h : (path, n) ∈ pathsOfAll ms) :
    MessageAt ms path n := by
  match ms, h with
  | m :: ms, h =>
    rw [pathsOfAll, List.mem_append] at h
    rcases h with h | h
    · exact messageAt_of_mem h List.mem_cons_self
    · have := messageAt_of_mems h
      cases this with
      | here hm => exact .here (List.mem_cons_of_mem _ hm)
      | inside hm h => exact .inside (List.mem_cons_of_mem _ hm) h
end

theorem declaresMessage_of_mem {ps : PackageSet} {name : Str} {m : Message} (h : (name, m) ∈ messagesOf ps) :
    ∃ package, DeclaresMessage ps package name m := by
  obtain ⟨p, hp, h⟩ := List.mem_flatMap.1 h
  obtain ⟨⟨path, n⟩, hx, he⟩ := List.mem_map.1 h
  cases he
  exact ⟨p.name, p, hp, rfl, path, messageAt_of_mems hx, rfl⟩

theorem declaresEnum_of_mem {ps : PackageSet} {name : Str} {e : Enum} (h : (name, e) ∈ enumsOf ps) :
    ∃ package, DeclaresEnum ps package name e := by
  obtain ⟨p, hp, h⟩ := List.mem_flatMap.1 h
  rcases List.mem_append.1 h with h | h
  · obtain ⟨e', he', he⟩ := List.mem_map.1 h
    cases he
    exact ⟨p.name, p, hp, rfl, [], .top he', rfl⟩
  · obtain ⟨⟨path, n⟩, hx, h⟩ := List.mem_flatMap.1 h
    obtain ⟨e', he', he⟩ := List.mem_map.1 h
    cases he
    exact ⟨p.name, p, hp, rfl, path, .nested (messageAt_of_mems hx) he', rfl⟩

/-- `Linked`, decided. -/
def linkedCheck (ps : PackageSet) : Bool :=
  decide ((messagesOf ps).map (·.1)).Nodup && decide ((enumsOf ps).map (·.1)).Nodup &&
  (messagesOf ps).all fun x => x.2.fields.all fun f =>
    (!decide (f.type = 10 ∨ f.type = 11) || decide (f.typeName ∈ (messagesOf ps).map (·.1))) &&
    (!decide (f.type = 14) || decide (f.typeName ∈ (enumsOf ps).map (·.1)))

theorem eq_of_keys {α : Type} {l : List (Str × α)} (h : (l.map (·.1)).Nodup) {k : Str} {a b : α}
    (ha : (k, a) ∈ l) (hb : (k, b) ∈ l) : a = b := by
  induction l with
  | nil => cases ha
  | cons x xs ih =>
    rw [List.map_cons, List.nodup_cons] at h
    rcases List.mem_cons.1 ha with ha | ha <;> rcases List.mem_cons.1 hb with hb | hb
    · cases ha.trans hb.symm
      rfl
    · exact absurd (List.mem_map.2 ⟨_, hb, by rw [← ha]⟩) h.1
    · exact absurd (List.mem_map.2 ⟨_, ha, by rw [← hb]⟩) h.1
    · exact ih h.2 ha hb

theorem linked_of_check {ps : PackageSet} (h : linkedCheck ps = true) : Linked ps := by
  simp only [linkedCheck, Bool.and_eq_true, Bool.or_eq_true, Bool.not_eq_true', decide_eq_true_eq,
    decide_eq_false_iff_not, List.all_eq_true] at h
  obtain ⟨⟨h1, h2⟩, h3⟩ := h
  refine ⟨?_, ?_, ?_, ?_⟩
  · intro _ _ _ _ _ ha hb
    exact eq_of_keys h1 (declaresMessage_mem ha) (declaresMessage_mem hb)
  · intro _ _ _ _ _ ha hb
    exact eq_of_keys h2 (declaresEnum_mem ha) (declaresEnum_mem hb)
  · intro _ _ _ hm f hf ht
    rcases (h3 _ (declaresMessage_mem hm) f hf).1 with h | h
    · exact absurd ht h
    · obtain ⟨⟨name, m⟩, hx, he⟩ := List.mem_map.1 h
      cases he
      obtain ⟨package, hp⟩ := declaresMessage_of_mem hx
      exact ⟨package, m, hp⟩
  · intro _ _ _ hm f hf ht
    rcases (h3 _ (declaresMessage_mem hm) f hf).2 with h | h
    · exact absurd ht h
    · obtain ⟨⟨name, e⟩, hx, he⟩ := List.mem_map.1 h
      cases he
      obtain ⟨package, hp⟩ := declaresEnum_of_mem hx
      exact ⟨package, e, hp⟩

end Verif.Spec.Encoded
