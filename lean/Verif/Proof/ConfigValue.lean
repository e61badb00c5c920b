import Verif.Proof.ConfigData

/-!
# The values a configuration stores
-/

namespace Verif.Spec

open Verif Str Settings
open Verif.Json (Doc Store foldChar matchesTag storeString storeBool storeItems storeList storeEntries storeMap
  storeMembers storeStruct)

namespace JsonStore

/-- A part of the variable that is still at its first value has this value afterwards. -/
def Sets (store : Store α) (k : Kind) (part : α → β) (z : β) (v : Doc → β) : Prop :=
  ∀ d a a', k d → part a = z → store d a = .ok a' → part a' = v d

/-- A part of the variable does not change. -/
def Ignores (store : Store α) (part : α → β) : Prop := ∀ d a a', store d a = .ok a' → part a' = part a

/-- The whole variable. -/
abbrev SetsTo (store : Store α) (k : Kind) (z : α) (v : Doc → α) : Prop := Sets store k (fun a => a) z v

theorem sets_string : SetsTo storeString aText [] stringOf := by
  intro d a a' hk hz h
  rcases hk with rfl | ⟨s, rfl⟩ <;> simp only [storeString, Except.ok.injEq] at h
  · rw [← h, hz]; rfl
  · rw [← h]; rfl

theorem sets_bool : SetsTo storeBool aFlag false flagOf := by
  intro d a a' hk hz h
  rcases hk with rfl | ⟨s, rfl⟩ <;> simp only [storeBool, Except.ok.injEq] at h
  · rw [← h, hz]; rfl
  · rw [← h]; rfl

theorem sets_items {item : Store α} {k : Kind} {zero : α} {v : Doc → α} (h : SetsTo item k zero v)
    (ds : List Doc) (hk : ∀ x ∈ ds, k x) : ∀ as, storeItems item zero ds [] = .ok as → as = ds.map v := by
  induction ds with
  | nil =>
    intro as he
    injection he with he
    exact he.symm
  | cons d ds ih =>
    intro as he
    rw [storeItems] at he
    cases hd : item d (([] : List α).head?.getD zero) with
    | error e => rw [hd] at he; cases he
    | ok a =>
      rw [hd] at he
      simp only [List.tail_nil] at he
      cases hs : storeItems item zero ds [] with
      | error e => rw [hs] at he; cases he
      | ok as' =>
        rw [hs] at he
        injection he with he
        have ha : a = v d := h d _ a (hk d List.mem_cons_self) rfl hd
        rw [← he, ih (fun x hx => hk x (List.mem_cons_of_mem _ hx)) as' hs, ha]
        rfl

theorem sets_list {item : Store α} {k : Kind} {zero : α} {v : Doc → α} (h : SetsTo item k zero v) :
    SetsTo (storeList item zero) (aList k) [] (itemsOf v) := by
  intro d a a' hk hz he
  rcases hk with rfl | ⟨ds, rfl, hk⟩
  · injection he with he
    exact he.symm
  · have hz : a = [] := hz
    subst hz
    exact sets_items h ds hk a' he

theorem set_new {m : GoMap Str Str} {k v : Str} (h : k ∉ m.map (·.1)) : m.set k v = m ++ [(k, v)] := by
  induction m with
  | nil => rfl
  | cons p ps ih =>
    rw [List.map_cons, List.mem_cons, not_or] at h
    unfold GoMap.set
    rw [if_neg (fun e => h.1 e.symm), ih h.2]
    rfl

theorem sets_entries (ms : List (Str × Doc)) : ∀ (m m' : GoMap Str Str), (∀ x ∈ ms, aText x.2) →
    (m.map (·.1) ++ ms.map (·.1)).Nodup → storeEntries ms m = .ok m' →
    m' = m ++ ms.map fun x => (x.1, stringOf x.2) := by
  induction ms with
  | nil =>
    intro m m' _ _ h
    injection h with h
    rw [← h]
    simp
  | cons x ms ih =>
    obtain ⟨k, d⟩ := x
    intro m m' ht hn h
    rw [storeEntries] at h
    cases hd : storeString d [] with
    | error e => rw [hd] at h; cases h
    | ok v =>
      rw [hd] at h
      simp only at h
      have hv : v = stringOf d := sets_string d [] v (ht _ List.mem_cons_self) rfl hd
      have hk : k ∉ m.map (·.1) := by
        intro hk
        exact (List.nodup_append.1 hn).2.2 k hk k (by simp) rfl
      have hn' : ((m.set k v).map (·.1) ++ ms.map (·.1)).Nodup := by
        rw [set_new hk]
        simpa using hn
      rw [ih _ _ (fun x hx => ht x (List.mem_cons_of_mem _ hx)) hn' h, set_new hk, hv]
      simp

theorem sets_map : SetsTo storeMap (aTable asDocumented) [] entriesOf := by
  intro d a a' hk hz he
  rcases hk with rfl | ⟨ms, rfl, hn, hk⟩
  · injection he with he
    exact he.symm
  · have hz : a = [] := hz
    subst hz
    rw [sets_entries ms [] a' hk (by simpa using hn trivial) he]
    rfl

theorem sets_field {store : Store β} {k : Kind} {z : β} {v : Doc → β} (h : SetsTo store k z v) {get : α → β}
    {set : β → α → α} (hg : ∀ b a, get (set b a) = b) : Sets (fieldStore store get set) k get z v := by
  intro d a a' hk hz he
  unfold fieldStore at he
  cases hb : store d (get a) with
  | error e => rw [hb] at he; cases he
  | ok b =>
    rw [hb] at he
    injection he with he
    rw [← he, hg]
    exact h d _ b hk hz hb

theorem ignores_field {store : Store β} {get : α → β} {set : β → α → α} {part : α → γ}
    (h : ∀ b a, part (set b a) = part a) : Ignores (fieldStore store get set) part := by
  intro d a a' he
  unfold fieldStore at he
  cases hb : store d (get a) with
  | error e => rw [hb] at he; cases he
  | ok b =>
    rw [hb] at he
    injection he with he
    rw [← he, h]

/-- All fields but the named one leave the part alone. -/
def Others (fields : List (Str × Store α)) (tag : Str) (part : α → β) : Prop :=
  ∀ f ∈ fields, f.1 ≠ tag → Ignores f.2 part

theorem others_nil {tag : Str} {part : α → β} : Others [] tag part := fun _ h => (nomatch h)

theorem others_cons {t tag : Str} {store : Store α} {part : α → β} {fields : List (Str × Store α)}
    (h : t = tag ∨ Ignores store part) (hs : Others fields tag part) : Others ((t, store) :: fields) tag part := by
  intro f hf hne
  rcases List.mem_cons.1 hf with rfl | hf
  · rcases h with h | h
    · exact absurd h hne
    · exact h
  · exact hs f hf hne

/-- All fields leave the part alone. -/
def NoneOf (fields : List (Str × Store α)) (part : α → β) : Prop := ∀ f ∈ fields, Ignores f.2 part

theorem none_nil {part : α → β} : NoneOf [] part := fun _ h => (nomatch h)

theorem none_cons {t : Str} {store : Store α} {part : α → β} {fields : List (Str × Store α)}
    (h : Ignores store part) (hs : NoneOf fields part) : NoneOf ((t, store) :: fields) part := by
  intro f hf
  rcases List.mem_cons.1 hf with rfl | hf
  · exact h
  · exact hs f hf

theorem ignores_struct {fields : List (Str × Store α)} {part : α → β} (h : NoneOf fields part) :
    Ignores (storeStruct fields) part := by
  intro d a a' he
  have key : ∀ (ms : List (Str × Doc)) (a a' : α), storeMembers fields ms a = .ok a' → part a' = part a := by
    intro ms
    induction ms with
    | nil =>
      intro a a' he
      injection he with he
      rw [he]
    | cons x ms ih =>
      obtain ⟨k, d⟩ := x
      intro a a' he
      rw [storeMembers] at he
      cases hf : fields.find? fun f => matchesTag f.1 k with
      | none => rw [hf] at he; cases he
      | some f =>
        rw [hf] at he
        simp only at he
        cases hb : f.2 d a with
        | error e => rw [hb] at he; cases he
        | ok b =>
          rw [hb] at he
          rw [ih b a' he, h f (List.mem_of_find?_eq_some hf) d a b hb]
  cases d with
  | null => injection he with he; rw [he]
  | object ms => exact key ms a a' he
  | _ => cases he

/-- Shows that a part is left alone. -/
macro "ignores" : tactic => `(tactic|
  (repeat' first
    | exact others_nil
    | exact none_nil
    | exact ignores_field (fun _ _ => rfl)
    | refine others_cons (Or.inl rfl) ?_
    | refine others_cons (Or.inr ?_) ?_
    | refine none_cons ?_ ?_
    | apply ignores_struct))

theorem lookup_none {ms : List (Str × Doc)} {k : Str} (h : k ∉ ms.map (·.1)) : ms.lookup k = none := by
  induction ms with
  | nil => rfl
  | cons m ms ih =>
    rw [List.map_cons, List.mem_cons, not_or] at h
    have hb : (k == m.1) = false := by simpa using h.1
    rw [List.lookup_cons, hb]
    exact ih h.2

/-- One setting of a group. -/
theorem sets_struct {fields : List (Str × Store α)} {settings : List (Str × Kind)} {tag : Str} {store : Store α}
    {k : Kind} {part : α → β} {z : β} {v : Doc → β} (i : Nat) (hf : fields[i]? = some (tag, store))
    (hs : settings[i]? = some (tag, k)) (ht : (fields.map (·.1)).Nodup) (hn : (settings.map (·.1)).Nodup)
    (hok : (settings.all fun s => tagOK s.1) = true) (hsame : fields.map (·.1) = settings.map (·.1))
    (h : Sets store k part z v) (hv : v .null = z) (ho : Others fields tag part) :
    Sets (storeStruct fields) (aGroup asDocumented settings) part z (fun d => v (member d tag)) := by
  replace hf : (tag, store) ∈ fields := List.mem_of_getElem? hf
  replace hs : (tag, k) ∈ settings := List.mem_of_getElem? hs
  have uniq : ∀ s ∈ settings, s.1 = tag → s.2 = k := by
    clear hf hsame hok
    intro s hm he
    induction settings with
    | nil => cases hm
    | cons x settings ih =>
      rw [List.map_cons, List.nodup_cons] at hn
      rcases List.mem_cons.1 hm with h1 | h1 <;> rcases List.mem_cons.1 hs with h2 | h2
      · rw [h1, ← h2]
      · subst h1
        exact absurd (List.mem_map.2 ⟨_, h2, he.symm⟩) hn.1
      · subst h2
        exact absurd (List.mem_map.2 ⟨_, h1, he⟩) hn.1
      · exact ih hn.2 h2 h1
  have key : ∀ (ms : List (Str × Doc)) (a a' : α), (ms.map (·.1)).Nodup →
      (∀ m ∈ ms, ∃ s ∈ settings, s.1 = m.1 ∧ s.2 m.2) → storeMembers fields ms a = .ok a' →
      (tag ∉ ms.map (·.1) → part a' = part a) ∧
      (part a = z → part a' = v ((ms.lookup tag).getD .null)) := by
    intro ms
    induction ms with
    | nil =>
      intro a a' _ _ he
      injection he with he
      rw [← he]
      exact ⟨fun _ => rfl, fun hz => by rw [hz, ← hv]; rfl⟩
    | cons x ms ih =>
      obtain ⟨n, d⟩ := x
      intro a a' hnd hm he
      rw [List.map_cons, List.nodup_cons] at hnd
      obtain ⟨s, hs1, hs2, hs3⟩ := hm _ List.mem_cons_self
      have hs2 : s.1 = n := hs2
      have hmem : n ∈ fields.map (·.1) := by
        rw [hsame, ← hs2]; exact List.mem_map.2 ⟨s, hs1, rfl⟩
      obtain ⟨f, hf1, hf2⟩ := List.mem_map.1 hmem
      have htag : matchesTag f.1 n = true := by
        rw [hf2, ← hs2]
        exact matchesTag_self (List.all_eq_true.1 hok s hs1)
      rw [storeMembers, find_field ht hf1 htag] at he
      simp only at he
      cases hb : f.2 d a with
      | error e => rw [hb] at he; cases he
      | ok b =>
        rw [hb] at he
        obtain ⟨ih1, ih2⟩ := ih b a' hnd.2 (fun m hx => hm m (List.mem_cons_of_mem _ hx)) he
        by_cases hnt : n = tag
        · subst hnt
          have hfe := tag_unique ht hf1 hf hf2
          subst hfe
          refine ⟨fun hx => absurd (by simp) hx, fun hz => ?_⟩
          have hk : k d := by
            rw [← uniq s hs1 hs2]; exact hs3
          rw [ih1 hnd.1, h d a b hk hz hb, List.lookup_cons]
          simp
        · have hig : part b = part a := ho f hf1 (by rw [hf2]; exact hnt) d a b hb
          refine ⟨fun hx => ?_, fun hz => ?_⟩
          · rw [List.map_cons, List.mem_cons, not_or] at hx
            rw [ih1 hx.2, hig]
          · have hbq : (tag == n) = false := by simpa using fun e => hnt e.symm
            rw [ih2 (by rw [hig, hz]), List.lookup_cons, hbq]
  intro d a a' hk hz he
  rcases hk with rfl | ⟨ms, rfl, hnd, hm⟩
  · injection he with he
    rw [← he, hz, ← hv]
    rfl
  · exact (key ms a a' (hnd trivial) hm he).2 hz

/-- Goes to a setting of a group. -/
macro "setting" n:num v:term : tactic => `(tactic|
  refine sets_struct (v := $v) $n rfl rfl (by decide) (by decide) (by decide) rfl ?_ rfl (by ignores))

theorem sets_package : SetsTo (storeStruct packageFields) (packageKind asDocumented) ([], [])
    (fun p => (stringOf (member p s%"directory"), stringOf (member p s%"name"))) := by
  have h1 : Sets (storeStruct packageFields) (packageKind asDocumented) (·.1) []
      (fun p => stringOf (member p s%"directory")) := by
    setting 0 (stringOf)
    exact sets_field sets_string fun _ _ => rfl
  have h2 : Sets (storeStruct packageFields) (packageKind asDocumented) (·.2) []
      (fun p => stringOf (member p s%"name")) := by
    setting 1 (stringOf)
    exact sets_field sets_string fun _ _ => rfl
  intro d a a' hk hz he
  have hz : a = ([], []) := hz
  subst hz
  exact Prod.ext (h1 d _ a' hk rfl he) (h2 d _ a' hk rfl he)

theorem sets_ignore : SetsTo (storeStruct ignoreFields) (ignoreKind asDocumented) ([], [])
    (fun i => (stringOf (member i s%"id"), itemsOf stringOf (member i s%"files"))) := by
  have h1 : Sets (storeStruct ignoreFields) (ignoreKind asDocumented) (·.1) []
      (fun p => stringOf (member p s%"id")) := by
    setting 0 (stringOf)
    exact sets_field sets_string fun _ _ => rfl
  have h2 : Sets (storeStruct ignoreFields) (ignoreKind asDocumented) (·.2) []
      (fun p => itemsOf stringOf (member p s%"files")) := by
    setting 1 (itemsOf stringOf)
    exact sets_field (sets_list sets_string) fun _ _ => rfl
  intro d a a' hk hz he
  have hz : a = ([], []) := hz
  subst hz
  exact Prod.ext (h1 d _ a' hk rfl he) (h2 d _ a' hk rfl he)

theorem sets_plugin : SetsTo (storeStruct pluginFields) (pluginKind asDocumented) {} pluginOf := by
  have h0 : Sets (storeStruct pluginFields) (pluginKind asDocumented) (·.name) []
      (fun p => stringOf (member p s%"name")) := by
    setting 0 (stringOf)
    exact sets_field sets_string fun _ _ => rfl
  have h1 : Sets (storeStruct pluginFields) (pluginKind asDocumented) (·.type) []
      (fun p => stringOf (member p s%"type")) := by
    setting 1 (stringOf)
    exact sets_field sets_string fun _ _ => rfl
  have h2 : Sets (storeStruct pluginFields) (pluginKind asDocumented) (·.flags) []
      (fun p => stringOf (member p s%"flags")) := by
    setting 2 (stringOf)
    exact sets_field sets_string fun _ _ => rfl
  have h3 : Sets (storeStruct pluginFields) (pluginKind asDocumented) (·.output) []
      (fun p => stringOf (member p s%"output")) := by
    setting 3 (stringOf)
    exact sets_field sets_string fun _ _ => rfl
  have h4 : Sets (storeStruct pluginFields) (pluginKind asDocumented) (·.path) []
      (fun p => stringOf (member p s%"path")) := by
    setting 4 (stringOf)
    exact sets_field sets_string fun _ _ => rfl
  have h5 : Sets (storeStruct pluginFields) (pluginKind asDocumented) (·.fileSuffix) []
      (fun p => stringOf (member p s%"file_suffix")) := by
    setting 5 (stringOf)
    exact sets_field sets_string fun _ _ => rfl
  have h6 : Sets (storeStruct pluginFields) (pluginKind asDocumented) (·.includeImports) false
      (fun p => flagOf (member p s%"include_imports")) := by
    setting 6 (flagOf)
    exact sets_field sets_bool fun _ _ => rfl
  have h7 : Sets (storeStruct pluginFields) (pluginKind asDocumented) (·.includeSourceInfo) false
      (fun p => flagOf (member p s%"include_source_info")) := by
    setting 7 (flagOf)
    exact sets_field sets_bool fun _ _ => rfl
  intro d a a' hk hz he
  have hz : a = {} := hz
  subst hz
  have e0 := h0 d _ a' hk rfl he
  have e1 := h1 d _ a' hk rfl he
  have e2 := h2 d _ a' hk rfl he
  have e3 := h3 d _ a' hk rfl he
  have e4 := h4 d _ a' hk rfl he
  have e5 := h5 d _ a' hk rfl he
  have e6 := h6 d _ a' hk rfl he
  have e7 := h7 d _ a' hk rfl he
  cases a'
  simp only at e0 e1 e2 e3 e4 e5 e6 e7
  simp only [pluginOf, e0, e1, e2, e3, e4, e5, e6, e7]

theorem sets_excludes : Sets (storeStruct configFields) (configKind asDocumented) (·.excludes) []
    (fun d => itemsOf stringOf (below d [s%"excludes"])) := by
  setting 0 (itemsOf stringOf)
  exact sets_field (sets_list sets_string) fun _ _ => rfl

theorem sets_allowUnusedImports : Sets (storeStruct configFields) (configKind asDocumented) (·.allowUnusedImports) false
    (fun d => flagOf (below d [s%"protoc", s%"allow_unused_imports"])) := by
  setting 1 (fun d => flagOf (below d [s%"allow_unused_imports"]))
  setting 0 (flagOf)
  exact sets_field sets_bool fun _ _ => rfl

theorem sets_version : Sets (storeStruct configFields) (configKind asDocumented) (·.version) []
    (fun d => stringOf (below d [s%"protoc", s%"version"])) := by
  setting 1 (fun d => stringOf (below d [s%"version"]))
  setting 1 (stringOf)
  exact sets_field sets_string fun _ _ => rfl

theorem sets_includes : Sets (storeStruct configFields) (configKind asDocumented) (·.includes) []
    (fun d => itemsOf stringOf (below d [s%"protoc", s%"includes"])) := by
  setting 1 (fun d => itemsOf stringOf (below d [s%"includes"]))
  setting 2 (itemsOf stringOf)
  exact sets_field (sets_list sets_string) fun _ _ => rfl

theorem sets_createPackages : Sets (storeStruct configFields) (configKind asDocumented) (·.createPackages) []
    (fun d => itemsOf (fun p => (stringOf (member p s%"directory"), stringOf (member p s%"name"))) (below d [s%"create", s%"packages"])) := by
  setting 2 (fun d => itemsOf (fun p => (stringOf (member p s%"directory"), stringOf (member p s%"name"))) (below d [s%"packages"]))
  setting 0 (itemsOf (fun p => (stringOf (member p s%"directory"), stringOf (member p s%"name"))))
  exact sets_field (sets_list sets_package) fun _ _ => rfl

theorem sets_lintGroup : Sets (storeStruct configFields) (configKind asDocumented) (·.lintGroup) []
    (fun d => stringOf (below d [s%"lint", s%"group"])) := by
  setting 3 (fun d => stringOf (below d [s%"group"]))
  setting 0 (stringOf)
  exact sets_field sets_string fun _ _ => rfl

theorem sets_ignores : Sets (storeStruct configFields) (configKind asDocumented) (·.ignores) []
    (fun d => itemsOf (fun i => (stringOf (member i s%"id"), itemsOf stringOf (member i s%"files"))) (below d [s%"lint", s%"ignores"])) := by
  setting 3 (fun d => itemsOf (fun i => (stringOf (member i s%"id"), itemsOf stringOf (member i s%"files"))) (below d [s%"ignores"]))
  setting 1 (itemsOf (fun i => (stringOf (member i s%"id"), itemsOf stringOf (member i s%"files"))))
  exact sets_field (sets_list sets_ignore) fun _ _ => rfl

theorem sets_noDefault : Sets (storeStruct configFields) (configKind asDocumented) (·.noDefault) false
    (fun d => flagOf (below d [s%"lint", s%"rules", s%"no_default"])) := by
  setting 3 (fun d => flagOf (below d [s%"rules", s%"no_default"]))
  setting 2 (fun d => flagOf (below d [s%"no_default"]))
  setting 0 (flagOf)
  exact sets_field sets_bool fun _ _ => rfl

theorem sets_add : Sets (storeStruct configFields) (configKind asDocumented) (·.add) []
    (fun d => itemsOf stringOf (below d [s%"lint", s%"rules", s%"add"])) := by
  setting 3 (fun d => itemsOf stringOf (below d [s%"rules", s%"add"]))
  setting 2 (fun d => itemsOf stringOf (below d [s%"add"]))
  setting 1 (itemsOf stringOf)
  exact sets_field (sets_list sets_string) fun _ _ => rfl

theorem sets_remove : Sets (storeStruct configFields) (configKind asDocumented) (·.remove) []
    (fun d => itemsOf stringOf (below d [s%"lint", s%"rules", s%"remove"])) := by
  setting 3 (fun d => itemsOf stringOf (below d [s%"rules", s%"remove"]))
  setting 2 (fun d => itemsOf stringOf (below d [s%"remove"]))
  setting 2 (itemsOf stringOf)
  exact sets_field (sets_list sets_string) fun _ _ => rfl

theorem sets_fileHeaderPath : Sets (storeStruct configFields) (configKind asDocumented) (·.fileHeaderPath) []
    (fun d => stringOf (below d [s%"lint", s%"file_header", s%"path"])) := by
  setting 3 (fun d => stringOf (below d [s%"file_header", s%"path"]))
  setting 3 (fun d => stringOf (below d [s%"path"]))
  setting 0 (stringOf)
  exact sets_field sets_string fun _ _ => rfl

theorem sets_fileHeaderContent : Sets (storeStruct configFields) (configKind asDocumented) (·.fileHeaderContent) []
    (fun d => stringOf (below d [s%"lint", s%"file_header", s%"content"])) := by
  setting 3 (fun d => stringOf (below d [s%"file_header", s%"content"]))
  setting 3 (fun d => stringOf (below d [s%"content"]))
  setting 1 (stringOf)
  exact sets_field sets_string fun _ _ => rfl

theorem sets_fileHeaderIsCommented : Sets (storeStruct configFields) (configKind asDocumented) (·.fileHeaderIsCommented) false
    (fun d => flagOf (below d [s%"lint", s%"file_header", s%"is_commented"])) := by
  setting 3 (fun d => flagOf (below d [s%"file_header", s%"is_commented"]))
  setting 3 (fun d => flagOf (below d [s%"is_commented"]))
  setting 2 (flagOf)
  exact sets_field sets_bool fun _ _ => rfl

theorem sets_javaPackagePrefix : Sets (storeStruct configFields) (configKind asDocumented) (·.javaPackagePrefix) []
    (fun d => stringOf (below d [s%"lint", s%"java_package_prefix"])) := by
  setting 3 (fun d => stringOf (below d [s%"java_package_prefix"]))
  setting 4 (stringOf)
  exact sets_field sets_string fun _ _ => rfl

theorem sets_allowSuppression : Sets (storeStruct configFields) (configKind asDocumented) (·.allowSuppression) false
    (fun d => flagOf (below d [s%"lint", s%"allow_suppression"])) := by
  setting 3 (fun d => flagOf (below d [s%"allow_suppression"]))
  setting 5 (flagOf)
  exact sets_field sets_bool fun _ _ => rfl

theorem sets_includeBeta : Sets (storeStruct configFields) (configKind asDocumented) (·.includeBeta) false
    (fun d => flagOf (below d [s%"break", s%"include_beta"])) := by
  setting 4 (fun d => flagOf (below d [s%"include_beta"]))
  setting 0 (flagOf)
  exact sets_field sets_bool fun _ _ => rfl

theorem sets_allowBetaDeps : Sets (storeStruct configFields) (configKind asDocumented) (·.allowBetaDeps) false
    (fun d => flagOf (below d [s%"break", s%"allow_beta_deps"])) := by
  setting 4 (fun d => flagOf (below d [s%"allow_beta_deps"]))
  setting 1 (flagOf)
  exact sets_field sets_bool fun _ _ => rfl

theorem sets_importPath : Sets (storeStruct configFields) (configKind asDocumented) (·.importPath) []
    (fun d => stringOf (below d [s%"generate", s%"go_options", s%"import_path"])) := by
  setting 5 (fun d => stringOf (below d [s%"go_options", s%"import_path"]))
  setting 0 (fun d => stringOf (below d [s%"import_path"]))
  setting 0 (stringOf)
  exact sets_field sets_string fun _ _ => rfl

theorem sets_extraModifiers : Sets (storeStruct configFields) (configKind asDocumented) (·.extraModifiers) []
    (fun d => entriesOf (below d [s%"generate", s%"go_options", s%"extra_modifiers"])) := by
  setting 5 (fun d => entriesOf (below d [s%"go_options", s%"extra_modifiers"]))
  setting 0 (fun d => entriesOf (below d [s%"extra_modifiers"]))
  setting 1 (entriesOf)
  exact sets_field sets_map fun _ _ => rfl

theorem sets_plugins : Sets (storeStruct configFields) (configKind asDocumented) (·.plugins) []
    (fun d => itemsOf pluginOf (below d [s%"generate", s%"plugins"])) := by
  setting 5 (fun d => itemsOf pluginOf (below d [s%"plugins"]))
  setting 1 (itemsOf pluginOf)
  exact sets_field (sets_list sets_plugin) fun _ _ => rfl

theorem sets_config : SetsTo (storeStruct configFields) (configKind asDocumented) {} configOf := by
  intro d a a' hk hz he
  have hz : a = {} := hz
  subst hz
  have e_excludes := sets_excludes d _ a' hk rfl he
  have e_allowUnusedImports := sets_allowUnusedImports d _ a' hk rfl he
  have e_version := sets_version d _ a' hk rfl he
  have e_includes := sets_includes d _ a' hk rfl he
  have e_createPackages := sets_createPackages d _ a' hk rfl he
  have e_lintGroup := sets_lintGroup d _ a' hk rfl he
  have e_ignores := sets_ignores d _ a' hk rfl he
  have e_noDefault := sets_noDefault d _ a' hk rfl he
  have e_add := sets_add d _ a' hk rfl he
  have e_remove := sets_remove d _ a' hk rfl he
  have e_fileHeaderPath := sets_fileHeaderPath d _ a' hk rfl he
  have e_fileHeaderContent := sets_fileHeaderContent d _ a' hk rfl he
  have e_fileHeaderIsCommented := sets_fileHeaderIsCommented d _ a' hk rfl he
  have e_javaPackagePrefix := sets_javaPackagePrefix d _ a' hk rfl he
  have e_allowSuppression := sets_allowSuppression d _ a' hk rfl he
  have e_includeBeta := sets_includeBeta d _ a' hk rfl he
  have e_allowBetaDeps := sets_allowBetaDeps d _ a' hk rfl he
  have e_importPath := sets_importPath d _ a' hk rfl he
  have e_extraModifiers := sets_extraModifiers d _ a' hk rfl he
  have e_plugins := sets_plugins d _ a' hk rfl he
  cases a'
  simp only at e_excludes e_allowUnusedImports e_version e_includes e_createPackages e_lintGroup e_ignores e_noDefault e_add e_remove e_fileHeaderPath e_fileHeaderContent e_fileHeaderIsCommented e_javaPackagePrefix e_allowSuppression e_includeBeta e_allowBetaDeps e_importPath e_extraModifiers e_plugins
  simp only [configOf, e_excludes, e_allowUnusedImports, e_version, e_includes, e_createPackages, e_lintGroup, e_ignores, e_noDefault, e_add, e_remove, e_fileHeaderPath, e_fileHeaderContent, e_fileHeaderIsCommented, e_javaPackagePrefix, e_allowSuppression, e_includeBeta, e_allowBetaDeps, e_importPath, e_extraModifiers, e_plugins]

/-! ## Documented names are names in some case -/

theorem sameLetter_refl : ∀ s : Str, Pointwise SameLetter s s
  | [] => .nil
  | _ :: cs => .cons (Or.inl rfl) (sameLetter_refl cs)

/-- The same settings, with wider kinds. -/
def Wider (narrow wide : List (Str × Kind)) : Prop :=
  ∀ s ∈ narrow, ∃ w ∈ wide, w.1 = s.1 ∧ ∀ d, s.2 d → w.2 d

theorem wider_nil : Wider [] wide := fun _ h => (nomatch h)

theorem wider_cons {t : Str} {k k' : Kind} {narrow wide : List (Str × Kind)} (h : ∀ d, k d → k' d)
    (hs : Wider narrow wide) : Wider ((t, k) :: narrow) ((t, k') :: wide) := by
  intro s hm
  rcases List.mem_cons.1 hm with rfl | hm
  · exact ⟨(t, k'), List.mem_cons_self, rfl, h⟩
  · obtain ⟨w, hw, he, hd⟩ := hs s hm
    exact ⟨w, List.mem_cons_of_mem _ hw, he, hd⟩

theorem wider_group {narrow wide : List (Str × Kind)} (h : Wider narrow wide) :
    ∀ d, aGroup asDocumented narrow d → aGroup anyCase wide d := by
  intro d hd
  rcases hd with hd | ⟨ms, rfl, _, hm⟩
  · exact Or.inl hd
  · refine Or.inr ⟨ms, rfl, fun x => x.elim, fun m hx => ?_⟩
    obtain ⟨s, hs, he, hk⟩ := hm m hx
    obtain ⟨w, hw, he', hd⟩ := h s hs
    have he : s.1 = m.1 := he
    exact ⟨w, hw, by rw [he', he]; exact sameLetter_refl _, hd _ hk⟩

theorem wider_list {k k' : Kind} (h : ∀ d, k d → k' d) : ∀ d, aList k d → aList k' d := by
  intro d hd
  rcases hd with hd | ⟨ds, rfl, hm⟩
  · exact Or.inl hd
  · exact Or.inr ⟨ds, rfl, fun x hx => h x (hm x hx)⟩

theorem wider_table : ∀ d, aTable asDocumented d → aTable anyCase d := by
  intro d hd
  rcases hd with hd | ⟨ms, rfl, _, hm⟩
  · exact Or.inl hd
  · exact Or.inr ⟨ms, rfl, fun x => x.elim, hm⟩

theorem wider_config : ∀ d, configKind asDocumented d → configKind anyCase d := by
  unfold configKind lintKind ignoreKind packageKind pluginKind
  repeat' first
    | exact wider_nil
    | refine wider_cons ?_ ?_
    | exact wider_table
    | refine wider_group ?_
    | refine wider_list ?_
    | exact fun _ h => h

/-- A configuration with the documented settings is stored. -/
theorem store_config {d : Doc} (h : configKind asDocumented d) :
    storeStruct configFields d {} = .ok (configOf d) := by
  obtain ⟨c, hc⟩ := (accepts_config d {}).2 (wider_config d h)
  rw [hc, show c = configOf d from sets_config d {} c h rfl hc]

end JsonStore

end Verif.Spec
