import Verif.Spec.ConfigData
import Verif.Proof.Strs

/-!
# Storing a configuration
-/

namespace Verif.Spec

open Verif Str Settings
open Verif.Json (Doc Store foldChar matchesTag storeString storeBool storeItems storeList storeEntries storeMap
  storeMembers storeStruct)

namespace JsonStore

/-! ## Names -/

/-- The characters of a tag. -/
def tagOK (tag : Str) : Bool := tag.all fun c => isLower c || c = '_'

theorem foldChar_iff {a b : Char} (ha : (isLower a || a = '_') = true) : foldChar b = a ↔ SameLetter a b := by
  have hb : isUpper a = false ∧ a.toNat < 128 := by
    simp only [Bool.or_eq_true, decide_eq_true_eq] at ha
    rcases ha with ha | rfl
    · exact ⟨isLower_not_upper ha, by have := isLower_iff.1 ha; omega⟩
    · decide
  unfold foldChar SameLetter
  constructor
  · intro h
    split at h
    · rename_i hk
      exact .inr (.inr (.inl ⟨h.symm, hk⟩))
    · split at h
      · rename_i hs
        exact .inr (.inr (.inr ⟨h.symm, hs⟩))
      · by_cases hu : isUpper b = true
        · right; left
          rw [← h, upperChar_lowerChar_of_upper hu]
        · left
          rw [← h, lowerChar_of_not_upper (by simpa using hu)]
  · rintro (rfl | rfl | ⟨rfl, hk⟩ | ⟨rfl, hs⟩)
    · rw [if_neg (by omega), if_neg (by omega), lowerChar_of_not_upper hb.1]
    · simp only [Bool.or_eq_true, decide_eq_true_eq] at ha
      rcases ha with ha | rfl
      · have h1 : (upperChar a).toNat = a.toNat - 32 := by rw [upperChar_toNat, if_pos ha]
        rw [if_neg (by omega), if_neg (by omega)]
        apply char_toNat_inj
        rw [lowerChar_toNat, if_pos (isUpper_upperChar_of_lower ha), h1]
        have := isLower_iff.1 ha
        omega
      · decide
    · rw [if_pos hk]
    · rw [if_neg (by omega), if_pos hs]

theorem matchesTag_iff {tag key : Str} (h : tagOK tag = true) :
    matchesTag tag key = true ↔ Pointwise SameLetter tag key := by
  unfold matchesTag
  rw [decide_eq_true_eq]
  induction tag generalizing key with
  | nil =>
    constructor
    · intro hk
      rw [List.map_eq_nil_iff] at hk
      subst hk
      exact .nil
    · intro hp
      cases hp
      rfl
  | cons a tag ih =>
    unfold tagOK at h
    rw [List.all_cons, Bool.and_eq_true] at h
    constructor
    · intro hk
      match key, hk with
      | b :: key, hk =>
        injection hk with h1 h2
        exact .cons ((foldChar_iff h.1).1 h1) ((ih h.2).1 h2)
    · intro hp
      cases hp with
      | cons h1 h2 =>
        rw [List.map_cons, (foldChar_iff h.1).2 h1, (ih h.2).2 h2]

theorem matchesTag_self {tag : Str} (h : tagOK tag = true) : matchesTag tag tag = true := by
  rw [matchesTag_iff h]
  clear h
  induction tag with
  | nil => exact .nil
  | cons c tag ih => exact .cons (.inl rfl) ih

theorem matchesTag_unique {a b key : Str} (ha : matchesTag a key = true) (hb : matchesTag b key = true) : a = b := by
  unfold matchesTag at ha hb
  rw [decide_eq_true_eq] at ha hb
  rw [← ha, ← hb]

/-! ## What is accepted -/

/-- The variable takes exactly the values of that kind. -/
def Accepts (store : Store α) (k : Kind) : Prop := ∀ d a, (∃ a', store d a = .ok a') ↔ k d

theorem accepts_string : Accepts storeString aText := by
  intro d a
  cases d <;> simp [storeString, aText]

theorem accepts_bool : Accepts storeBool aFlag := by
  intro d a
  cases d <;> simp [storeBool, aFlag]

theorem accepts_items {item : Store α} {k : Kind} (h : Accepts item k) (zero : α) (ds : List Doc) :
    ∀ old, (∃ a', storeItems item zero ds old = .ok a') ↔ ∀ x ∈ ds, k x := by
  induction ds with
  | nil => intro old; simp [storeItems]
  | cons d ds ih =>
    intro old
    rw [List.forall_mem_cons, ← h d (old.head?.getD zero), ← ih old.tail]
    rw [storeItems]
    cases item d (old.head?.getD zero) with
    | error e => simp
    | ok a =>
      cases storeItems item zero ds old.tail with
      | error e => simp
      | ok as => simp

theorem accepts_list {item : Store α} {k : Kind} (h : Accepts item k) (zero : α) :
    Accepts (storeList item zero) (aList k) := by
  intro d a
  cases d <;> simp [storeList, aList]
  exact accepts_items h zero _ _

theorem accepts_entries (ms : List (Str × Doc)) : ∀ m, (∃ a', storeEntries ms m = .ok a') ↔ ∀ x ∈ ms, aText x.2 := by
  induction ms with
  | nil => intro m; simp [storeEntries]
  | cons x ms ih =>
    obtain ⟨k, d⟩ := x
    intro m
    rw [List.forall_mem_cons, ← accepts_string d []]
    unfold storeEntries
    cases storeString d [] with
    | error e => simp
    | ok v =>
      rw [← ih (m.set k v)]
      simp

theorem accepts_map : Accepts storeMap (aTable anyCase) := by
  intro d a
  cases d with
  | object ms =>
    simp only [storeMap, aTable, anyCase]
    rw [accepts_entries]
    simp
  | _ => simp [storeMap, aTable]

theorem accepts_field {store : Store β} {k : Kind} (h : Accepts store k) (get : α → β) (set : β → α → α) :
    Accepts (fieldStore store get set) k := by
  intro d a
  rw [← h d (get a)]
  unfold fieldStore
  cases store d (get a) <;> simp

/-- The fields of a struct are these settings. -/
structure Match (fields : List (Str × Store α)) (settings : List (Str × Kind)) : Prop where
  tags : (fields.map (·.1)).Nodup
  ok : ∀ f ∈ fields, tagOK f.1 = true
  fields : Pointwise (fun f s => f.1 = s.1 ∧ Accepts f.2 s.2) fields settings

theorem match_left {fields : List (Str × Store α)} {settings : List (Str × Kind)}
    (h : Pointwise (fun f s => f.1 = s.1 ∧ Accepts f.2 s.2) fields settings) {f : Str × Store α} (hf : f ∈ fields) :
    ∃ s ∈ settings, f.1 = s.1 ∧ Accepts f.2 s.2 := by
  induction h with
  | nil => cases hf
  | cons h _ ih =>
    rcases List.mem_cons.1 hf with rfl | hf
    · exact ⟨_, List.mem_cons_self, h⟩
    · obtain ⟨s, hs, h⟩ := ih hf
      exact ⟨s, List.mem_cons_of_mem _ hs, h⟩

theorem match_right {fields : List (Str × Store α)} {settings : List (Str × Kind)}
    (h : Pointwise (fun f s => f.1 = s.1 ∧ Accepts f.2 s.2) fields settings) {s : Str × Kind} (hs : s ∈ settings) :
    ∃ f ∈ fields, f.1 = s.1 ∧ Accepts f.2 s.2 := by
  induction h with
  | nil => cases hs
  | cons h _ ih =>
    rcases List.mem_cons.1 hs with rfl | hs
    · exact ⟨_, List.mem_cons_self, h⟩
    · obtain ⟨f, hf, h⟩ := ih hs
      exact ⟨f, List.mem_cons_of_mem _ hf, h⟩

theorem tag_unique {fields : List (Str × Store α)} (h : (fields.map (·.1)).Nodup) {f g : Str × Store α}
    (hf : f ∈ fields) (hg : g ∈ fields) (he : f.1 = g.1) : f = g := by
  induction fields with
  | nil => cases hf
  | cons x fields ih =>
    rw [List.map_cons, List.nodup_cons] at h
    rcases List.mem_cons.1 hf with hf1 | hf1 <;> rcases List.mem_cons.1 hg with hg1 | hg1
    · rw [hf1, hg1]
    · subst hf1; exact absurd (List.mem_map.2 ⟨g, hg1, he.symm⟩) h.1
    · subst hg1; exact absurd (List.mem_map.2 ⟨f, hf1, he⟩) h.1
    · exact ih h.2 hf1 hg1

/-- The field found for a name. -/
theorem find_field {fields : List (Str × Store α)} (h : (fields.map (·.1)).Nodup) {f : Str × Store α}
    (hf : f ∈ fields) {k : Str} (hm : matchesTag f.1 k = true) :
    fields.find? (fun f => matchesTag f.1 k) = some f := by
  cases hx : fields.find? fun f => matchesTag f.1 k with
  | none =>
    rw [List.find?_eq_none] at hx
    exact absurd hm (hx f hf)
  | some g =>
    have h1 := List.find?_some hx
    have h2 := List.mem_of_find?_eq_some hx
    rw [tag_unique h h2 hf (matchesTag_unique h1 hm)]

theorem accepts_members {fields : List (Str × Store α)} {settings : List (Str × Kind)} (h : Match fields settings)
    (ms : List (Str × Doc)) : ∀ a, (∃ a', storeMembers fields ms a = .ok a') ↔
      ∀ m ∈ ms, ∃ s ∈ settings, Pointwise SameLetter s.1 m.1 ∧ s.2 m.2 := by
  induction ms with
  | nil => intro a; simp [storeMembers]
  | cons x ms ih =>
    obtain ⟨k, d⟩ := x
    intro a
    rw [List.forall_mem_cons]
    unfold storeMembers
    cases hx : fields.find? fun f => matchesTag f.1 k with
    | none =>
      rw [List.find?_eq_none] at hx
      constructor
      · rintro ⟨_, h⟩; cases h
      · rintro ⟨⟨s, hs, hn, _⟩, _⟩
        obtain ⟨f, hf, he, _⟩ := match_right h.fields hs
        refine absurd ?_ (hx f hf)
        rw [matchesTag_iff (h.ok f hf), he]
        exact hn
    | some f =>
      have h1 := List.find?_some hx
      have h2 := List.mem_of_find?_eq_some hx
      obtain ⟨s, hs, he, ha⟩ := match_left h.fields h2
      have key : (∃ s ∈ settings, Pointwise SameLetter s.1 k ∧ s.2 d) ↔ ∃ a', f.2 d a = .ok a' := by
        constructor
        · rintro ⟨s', hs', hn, hk⟩
          obtain ⟨g, hg, hge, hga⟩ := match_right h.fields hs'
          have hgm : matchesTag g.1 k = true := by rw [matchesTag_iff (h.ok g hg), hge]; exact hn
          have := tag_unique h.tags hg h2 (matchesTag_unique hgm h1)
          subst this
          exact (hga d a).2 hk
        · intro hd
          exact ⟨s, hs, by rw [← he, ← matchesTag_iff (h.ok f h2)]; exact h1, (ha d a).1 hd⟩
      simp only
      rw [key]
      cases hf : f.2 d a with
      | error e => simp
      | ok b =>
        simp only [Except.ok.injEq, exists_eq', true_and]
        exact ih b

theorem accepts_struct {fields : List (Str × Store α)} {settings : List (Str × Kind)} (h : Match fields settings) :
    Accepts (storeStruct fields) (aGroup anyCase settings) := by
  intro d a
  cases d with
  | object ms =>
    simp only [storeStruct, aGroup, anyCase]
    rw [accepts_members h]
    simp
  | _ => simp [storeStruct, aGroup]

theorem match_names {fields : List (Str × Store α)} {settings : List (Str × Kind)}
    (h : Pointwise (fun f s => f.1 = s.1 ∧ Accepts f.2 s.2) fields settings) :
    fields.map (·.1) = settings.map (·.1) := by
  induction h with
  | nil => rfl
  | cons h1 _ ih => rw [List.map_cons, List.map_cons, h1.1, ih]

theorem match_nil : Match ([] : List (Str × Store α)) [] := ⟨List.nodup_nil, by simp, .nil⟩

theorem match_cons {fields : List (Str × Store α)} {settings : List (Str × Kind)} (h : Match fields settings)
    {tag : Str} {store : Store α} {k : Kind} (hs : Accepts store k) (ht : tagOK tag = true)
    (hn : tag ∉ settings.map (·.1)) : Match ((tag, store) :: fields) ((tag, k) :: settings) := by
  have same := match_names h.fields
  refine ⟨?_, ?_, .cons ⟨rfl, hs⟩ h.fields⟩
  · rw [List.map_cons, List.nodup_cons]
    exact ⟨by rw [same]; exact hn, h.tags⟩
  · intro f hf
    rcases List.mem_cons.1 hf with rfl | hf
    · exact ht
    · exact h.ok f hf

/-- Collects the fields. -/
macro "fields" : tactic => `(tactic|
  (repeat' first
    | exact match_nil
    | refine match_cons ?_ ?_ (by decide) (by decide)
    | apply accepts_field
    | exact accepts_string
    | exact accepts_bool
    | exact accepts_map
    | apply accepts_list
    | apply accepts_struct))

theorem accepts_package : Accepts (storeStruct packageFields) (packageKind anyCase) := by
  unfold packageFields packageKind; fields

theorem accepts_ignore : Accepts (storeStruct ignoreFields) (ignoreKind anyCase) := by
  unfold ignoreFields ignoreKind; fields

theorem accepts_plugin : Accepts (storeStruct pluginFields) (pluginKind anyCase) := by
  unfold pluginFields pluginKind; fields

theorem accepts_lint : Accepts (storeStruct lintFields) (lintKind anyCase) := by
  unfold lintFields lintKind ruleFields fileHeaderFields
  fields

theorem accepts_config : Accepts (storeStruct configFields) (configKind anyCase) := by
  unfold configFields configKind protocFields createFields breakFields generateFields goOptionFields
  fields

end JsonStore

end Verif.Spec
