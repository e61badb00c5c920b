import Verif.Proof.JsonBack
import Verif.Proof.ConfigValue

/-!
# Texts of configurations
-/

namespace Verif.Spec

open Verif Str Settings
open Verif.Json (Doc readDoc skipSpace storeStruct decode)
open Verif.Spec.Json (hexNumber)

namespace JsonRead

/-- A text that says a value is read up to the white space at its end. -/
theorem says_read {text : Str} {d : Doc} (h : SaysDoc text d) :
    ∃ w, Blanks w ∧ readDoc (text.length + 1) (skipSpace text) = some (d, w) := by
  obtain ⟨v, t, w, hv, ht, hw, rfl⟩ := h
  have hr : NumEnd w := by
    have := numEnd_blanks hw (rest := []) (by
      intro c hc; cases hc)
    simpa using this
  refine ⟨w, hw, ?_⟩
  rw [List.append_assoc, skipSpace_doc hv ht, readDoc_text ht _ (by simp; omega) w hr]

/-- A text says at most one value. -/
theorem says_unique {text : Str} {d e : Doc} (hd : SaysDoc text d) (he : SaysDoc text e) : d = e := by
  obtain ⟨_, _, h1⟩ := says_read hd
  obtain ⟨_, _, h2⟩ := says_read he
  rw [h1] at h2
  injection h2 with h2
  injection h2

/-- A text that says a value is read as that value. -/
theorem decode_says {store : Json.Store α} {text : Str} {d : Doc} (h : SaysDoc text d) (a : α) :
    decode store text a = store d a := by
  obtain ⟨w, _, hr⟩ := says_read h
  unfold decode
  rw [hr]

/-- A text that is read begins with a value. -/
theorem decode_begins {store : Json.Store α} {text : Str} {a a' : α} (h : decode store text a = .ok a') :
    ∃ d, Begins text d ∧ store d a = .ok a' := by
  unfold decode at h
  cases hr : readDoc (text.length + 1) (skipSpace text) with
  | none => rw [hr] at h; cases h
  | some p =>
    obtain ⟨d, rest⟩ := p
    rw [hr] at h
    obtain ⟨w, hw, he⟩ := skipSpace_split text
    obtain ⟨t, ht, hd⟩ := (read_some _).1 _ _ _ hr
    exact ⟨d, ⟨w, t, rest, hw, hd, by rw [List.append_assoc, ← ht]; exact he⟩, h⟩

end JsonRead

namespace JsonWrite

/-! ## Every value without numbers has a text -/

theorem control_text : ∀ n : Fin 32, ∃ a b, hexNumber '0' '0' a b = some n.val := by
  intro n
  have : ∀ n : Fin 32, hexNumber '0' '0' (if n.val < 16 then '0' else '1')
      (s%"0123456789abcdef")[n.val % 16]! = some n.val := by decide +kernel
  exact ⟨_, _, this n⟩

theorem char_text (c : Char) : ∃ t, CharText c t := by
  by_cases h1 : 32 ≤ c.toNat
  · by_cases h2 : c = '"'
    · subst h2
      exact ⟨_, .short (e := '"') rfl⟩
    · by_cases h3 : c = '\\'
      · subst h3
        exact ⟨_, .short (e := '\\') rfl⟩
      · exact ⟨_, .plain h1 h2 h3⟩
  · obtain ⟨a, b, h⟩ := control_text ⟨c.toNat, by omega⟩
    have h : hexNumber '0' '0' a b = some c.toNat := h
    have := CharText.number h (Or.inl (by omega))
    rw [Char.ofNat_toNat] at this
    exact ⟨_, this⟩

theorem body_text : ∀ s : Str, ∃ t, BodyText CharText s t
  | [] => ⟨_, .nil⟩
  | c :: s =>
    let ⟨_, h⟩ := char_text c
    let ⟨_, hs⟩ := body_text s
    ⟨_, .cons h hs⟩

theorem string_text (s : Str) : ∃ t, StringText CharText s t :=
  let ⟨_, h⟩ := body_text s
  ⟨_, .quoted h⟩

/-- The value has a text. -/
def HasText (d : Doc) : Prop := ∃ t, DocText CharText d t

theorem has_string (s : Str) : HasText (.string s) :=
  let ⟨_, h⟩ := string_text s
  ⟨_, .string h⟩

theorem has_bool (b : Bool) : HasText (.bool b) := by
  cases b
  · exact ⟨_, .no⟩
  · exact ⟨_, .yes⟩

theorem has_array {ds : List Doc} (h : ∀ x ∈ ds, HasText x) : HasText (.array ds) := by
  have none : Blanks [] := fun c hc => (nomatch hc)
  cases ds with
  | nil => exact ⟨_, .emptyArray none⟩
  | cons d ds =>
    have key : ∀ (ds : List Doc) (d : Doc), (∀ x ∈ d :: ds, HasText x) → ∃ t, ItemsText CharText (d :: ds) t := by
      intro ds
      induction ds with
      | nil =>
        intro d h
        obtain ⟨t, ht⟩ := h d List.mem_cons_self
        exact ⟨_, .one none ht none⟩
      | cons e ds ih =>
        intro d h
        obtain ⟨t, ht⟩ := h d List.mem_cons_self
        obtain ⟨u, hu⟩ := ih e fun x hx => h x (List.mem_cons_of_mem _ hx)
        exact ⟨_, .more none ht none hu⟩
    obtain ⟨t, ht⟩ := key ds d h
    exact ⟨_, .array ht⟩

theorem has_object {ms : List (Str × Doc)} (h : ∀ x ∈ ms, HasText x.2) : HasText (.object ms) := by
  have none : Blanks [] := fun c hc => (nomatch hc)
  cases ms with
  | nil => exact ⟨_, .emptyObject none⟩
  | cons m ms =>
    have key : ∀ (ms : List (Str × Doc)) (m : Str × Doc), (∀ x ∈ m :: ms, HasText x.2) →
        ∃ t, MembersText CharText (m :: ms) t := by
      intro ms
      induction ms with
      | nil =>
        intro m h
        obtain ⟨t, ht⟩ := h m List.mem_cons_self
        obtain ⟨n, hn⟩ := string_text m.1
        exact ⟨_, .one none hn none none ht none⟩
      | cons e ms ih =>
        intro m h
        obtain ⟨t, ht⟩ := h m List.mem_cons_self
        obtain ⟨n, hn⟩ := string_text m.1
        obtain ⟨u, hu⟩ := ih e fun x hx => h x (List.mem_cons_of_mem _ hx)
        exact ⟨_, .more none hn none none ht none hu⟩
    obtain ⟨t, ht⟩ := key ms m h
    exact ⟨_, .object ht⟩

theorem has_says {d : Doc} (h : HasText d) : ∃ text, SaysDoc text d := by
  have none : Blanks [] := fun c hc => (nomatch hc)
  obtain ⟨t, ht⟩ := h
  exact ⟨_, [], t, [], none, ht, none, rfl⟩

/-! ## A value for each configuration -/

/-- A list of texts. -/
def listDoc (ss : List Str) : Doc := .array (ss.map .string)

/-- A plugin. -/
def pluginDoc (p : ExternalPlugin) : Doc := .object [
  (s%"name", .string p.name), (s%"type", .string p.type), (s%"flags", .string p.flags),
  (s%"output", .string p.output), (s%"path", .string p.path), (s%"file_suffix", .string p.fileSuffix),
  (s%"include_imports", .bool p.includeImports), (s%"include_source_info", .bool p.includeSourceInfo)]

/-- A package. -/
def packageDoc (p : Str × Str) : Doc := .object [(s%"directory", .string p.1), (s%"name", .string p.2)]

/-- Files for which a rule is ignored. -/
def ignoreDoc (p : Str × List Str) : Doc := .object [(s%"id", .string p.1), (s%"files", listDoc p.2)]

/-- A configuration. -/
def configDoc (c : ExternalConfig) : Doc := .object [
  (s%"excludes", listDoc c.excludes),
  (s%"protoc", .object [(s%"allow_unused_imports", .bool c.allowUnusedImports), (s%"version", .string c.version),
    (s%"includes", listDoc c.includes)]),
  (s%"create", .object [(s%"packages", .array (c.createPackages.map packageDoc))]),
  (s%"lint", .object [
    (s%"group", .string c.lintGroup),
    (s%"ignores", .array (c.ignores.map ignoreDoc)),
    (s%"rules", .object [(s%"no_default", .bool c.noDefault), (s%"add", listDoc c.add),
      (s%"remove", listDoc c.remove)]),
    (s%"file_header", .object [(s%"path", .string c.fileHeaderPath), (s%"content", .string c.fileHeaderContent),
      (s%"is_commented", .bool c.fileHeaderIsCommented)]),
    (s%"java_package_prefix", .string c.javaPackagePrefix),
    (s%"allow_suppression", .bool c.allowSuppression)]),
  (s%"break", .object [(s%"include_beta", .bool c.includeBeta), (s%"allow_beta_deps", .bool c.allowBetaDeps)]),
  (s%"generate", .object [
    (s%"go_options", .object [(s%"import_path", .string c.importPath),
      (s%"extra_modifiers", .object (c.extraModifiers.map fun m => (m.1, .string m.2)))]),
    (s%"plugins", .array (c.plugins.map pluginDoc))])]

theorem items_listDoc (ss : List Str) : itemsOf stringOf (listDoc ss) = ss := by
  simp only [listDoc, itemsOf, List.map_map]
  exact List.map_id'' (fun _ => rfl) ss

theorem items_map (f : α → Doc) (g : Doc → α) (h : ∀ a, g (f a) = a) (as : List α) :
    itemsOf g (.array (as.map f)) = as := by
  simp only [itemsOf, List.map_map]
  exact List.map_id'' h as

theorem configOf_configDoc (c : ExternalConfig) : configOf (configDoc c) = c := by
  have e1 : configOf (configDoc c) = { c with
      excludes := itemsOf stringOf (listDoc c.excludes)
      includes := itemsOf stringOf (listDoc c.includes)
      createPackages := itemsOf (fun p => (stringOf (member p s%"directory"), stringOf (member p s%"name")))
        (.array (c.createPackages.map packageDoc))
      ignores := itemsOf (fun i => (stringOf (member i s%"id"), itemsOf stringOf (member i s%"files")))
        (.array (c.ignores.map ignoreDoc))
      add := itemsOf stringOf (listDoc c.add)
      remove := itemsOf stringOf (listDoc c.remove)
      extraModifiers := entriesOf (.object (c.extraModifiers.map fun m => (m.1, .string m.2)))
      plugins := itemsOf pluginOf (.array (c.plugins.map pluginDoc)) } := rfl
  rw [e1, items_listDoc, items_listDoc, items_listDoc, items_listDoc, items_map _ _ (fun _ => rfl),
    items_map _ _ (fun p => ?_), items_map _ _ (fun _ => rfl)]
  · have : entriesOf (.object (c.extraModifiers.map fun m => (m.1, Doc.string m.2))) = c.extraModifiers := by
      simp only [entriesOf, List.map_map]
      exact List.map_id'' (fun _ => rfl) _
    rw [this]
  · exact Prod.ext rfl (items_listDoc p.2)

theorem text_string (s : Str) : aText (.string s) := Or.inr ⟨s, rfl⟩
theorem flag_bool (b : Bool) : aFlag (.bool b) := Or.inr ⟨b, rfl⟩

theorem list_map {k : Kind} {f : α → Doc} (h : ∀ a, k (f a)) (as : List α) : aList k (.array (as.map f)) := by
  refine Or.inr ⟨_, rfl, fun x hx => ?_⟩
  obtain ⟨a, _, rfl⟩ := List.mem_map.1 hx
  exact h a

/-- The members are some of the settings. -/
def Fits (ms : List (Str × Doc)) (settings : List (Str × Kind)) : Prop :=
  ∀ m ∈ ms, ∃ s ∈ settings, s.1 = m.1 ∧ s.2 m.2

theorem fits_nil : Fits [] settings := fun _ h => (nomatch h)

theorem fits_cons {t : Str} {d : Doc} {k : Kind} {ms : List (Str × Doc)} {settings : List (Str × Kind)}
    (h : k d) (hs : Fits ms settings) : Fits ((t, d) :: ms) ((t, k) :: settings) := by
  intro m hm
  rcases List.mem_cons.1 hm with rfl | hm
  · exact ⟨_, List.mem_cons_self, rfl, h⟩
  · obtain ⟨s, hs, he, hk⟩ := hs m hm
    exact ⟨s, List.mem_cons_of_mem _ hs, he, hk⟩

theorem group_of {ms : List (Str × Doc)} {settings : List (Str × Kind)} (hn : (ms.map (·.1)).Nodup)
    (h : Fits ms settings) : aGroup asDocumented settings (.object ms) := Or.inr ⟨ms, rfl, fun _ => hn, h⟩

/-- Shows that a value is of its kind. -/
macro "kinds" : tactic => `(tactic|
  (repeat' first
    | exact fits_nil
    | exact text_string _
    | exact flag_bool _
    | refine fits_cons ?_ ?_
    | refine group_of (by simp) ?_
    | refine list_map (fun a => ?_) _))

theorem configKind_configDoc (c : ExternalConfig) (hn : (c.extraModifiers.map (·.1)).Nodup) :
    configKind asDocumented (configDoc c) := by
  have ht : aTable asDocumented (.object (c.extraModifiers.map fun m => (m.1, .string m.2))) := by
    refine Or.inr ⟨_, rfl, fun _ => ?_, fun x hx => ?_⟩
    · rw [List.map_map]; exact hn
    · obtain ⟨a, _, rfl⟩ := List.mem_map.1 hx
      exact text_string _
  unfold configKind configDoc lintKind ignoreKind packageKind pluginKind packageDoc ignoreDoc pluginDoc listDoc
  kinds
  exact ht

theorem forall_nil {P : α → Prop} : ∀ x ∈ ([] : List α), P x := fun _ h => (nomatch h)

theorem forall_cons {P : α → Prop} {a : α} {as : List α} (h : P a) (hs : ∀ x ∈ as, P x) : ∀ x ∈ a :: as, P x := by
  intro x hx
  rcases List.mem_cons.1 hx with rfl | hx
  · exact h
  · exact hs x hx

theorem has_list {f : α → Doc} (h : ∀ a, HasText (f a)) (as : List α) : HasText (.array (as.map f)) := by
  refine has_array fun x hx => ?_
  obtain ⟨a, _, rfl⟩ := List.mem_map.1 hx
  exact h a

theorem hasText_configDoc (c : ExternalConfig) : HasText (configDoc c) := by
  have ht : HasText (.object (c.extraModifiers.map fun m => (m.1, .string m.2))) := by
    refine has_object fun x hx => ?_
    obtain ⟨a, _, rfl⟩ := List.mem_map.1 hx
    exact has_string _
  unfold configDoc packageDoc ignoreDoc pluginDoc listDoc
  repeat' first
    | exact ht
    | exact has_string _
    | exact has_bool _
    | exact forall_nil
    | refine forall_cons ?_ ?_
    | refine has_list (fun a => ?_) _
    | refine has_object ?_

end JsonWrite

end Verif.Spec
