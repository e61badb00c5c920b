import Verif.Proof.Reader

/-! # The text of a file reads as its declarations -/

namespace Verif.Format

open Verif Str Proto Spec

theorem elementsFit_iff {isProto2 : Bool} {around : Around} {es : List Element} :
    ElementsFit isProto2 around es ↔ ∀ e ∈ es, ElementFits isProto2 around e := by
  induction es with
  | nil => unfold ElementsFit; simp
  | cons e es ih => unfold ElementsFit; rw [ih]; simp

theorem elementsToks_append (isProto2 : Bool) (a b : List Element) :
    elementsToks keep isProto2 (a ++ b) = elementsToks keep isProto2 a ++ elementsToks keep isProto2 b := by
  induction a with
  | nil => rw [elementsToks_nil]; rfl
  | cons e a ih =>
    have hc : ∀ l, elementsToks keep isProto2 (e :: l) = elementToks keep isProto2 e ++ elementsToks keep isProto2 l :=
      fun l => by conv => lhs; unfold elementsToks
    rw [List.cons_append, hc, hc, ih, List.append_assoc]

theorem elementsToks_map {α : Type} (isProto2 : Bool) (f : α → Element) (l : List α) :
    elementsToks keep isProto2 (l.map f) = l.flatMap fun a => elementToks keep isProto2 (f a) := by
  induction l with
  | nil => exact elementsToks_nil _
  | cons a l ih =>
    rw [List.map_cons, List.flatMap_cons, ← ih]
    conv => lhs; unfold elementsToks

/-! ## Tidied declarations fit -/

theorem onlyOption_map {os : List Opt} (h : ∀ o ∈ os, OptionFits o) :
    ∀ e ∈ os.map Element.option, OnlyOption e := by
  intro e he
  obtain ⟨o, ho, rfl⟩ := List.mem_map.1 he
  exact h o ho

theorem fieldFits_sort {sort : List Opt → List Opt} (hsort : ∀ l, (sort l).Perm l) {f : Field}
    (h : FieldFits f) : FieldFits { f with options := sort f.options } where
  comment := h.comment
  inlineComment := h.inlineComment
  name := h.name
  type := h.type
  options := fun o ho => h.options o ((hsort _).mem_iff.1 ho)

mutual

theorem fits_tidy {sort : List Opt → List Opt} (hsort : ∀ l, (sort l).Perm l) (isProto2 : Bool)
    (around : Around) : ∀ e : Element, ElementFits isProto2 around e →
    ElementFits isProto2 around (tidy sort e)
  | .comment c, h => by unfold tidy; exact h
  | .syntax c, h => by unfold tidy; exact h
  | .package c, h => by unfold tidy; exact h
  | .import c, h => by unfold tidy; exact h
  | .option c, h => by unfold tidy; exact h
  | .reserved c, h => by unfold tidy; exact h
  | .extensions c, h => by unfold tidy; exact h
  | .message m es, h => by
    unfold ElementFits at h
    unfold tidy ElementFits
    exact ⟨h.1, h.2.1, h.2.2.1, fits_tidyAll hsort isProto2 .message es h.2.2.2⟩
  | .enum m es, h => by
    unfold ElementFits at h
    unfold tidy ElementFits
    exact ⟨h.1, h.2.1, h.2.2.1, fits_tidyAll hsort isProto2 .enum es h.2.2.2⟩
  | .service m es, h => by
    unfold ElementFits at h
    unfold tidy ElementFits
    exact ⟨h.1, h.2.1, h.2.2.1, fits_tidyAll hsort isProto2 .service es h.2.2.2⟩
  | .oneof m es, h => by
    unfold ElementFits at h
    unfold tidy ElementFits
    exact ⟨h.1, h.2.1, h.2.2.1, fits_tidyAll hsort isProto2 .oneof es h.2.2.2⟩
  | .group m es, h => by
    unfold ElementFits at h
    unfold tidy ElementFits
    exact ⟨h.1, h.2.1, h.2.2.1, fits_tidyAll hsort isProto2 .group es h.2.2.2⟩
  | .enumField f es, h => by
    unfold ElementFits at h
    obtain ⟨h1, h2, h3, h4, h5, h6⟩ := h
    unfold tidy ElementFits
    exact ⟨h1, h2, h3, h4, h5, onlyOption_map fun o ho => optionsAmong_fit h6 o ((hsort _).mem_iff.1 ho)⟩
  | .rpc f es, h => by
    unfold ElementFits at h
    obtain ⟨h1, h2, h3, h4, h5, h6, h7⟩ := h
    unfold tidy ElementFits
    exact ⟨h1, h2, h3, h4, h5, h6, onlyOption_map fun o ho => optionsAmong_fit h7 o ((hsort _).mem_iff.1 ho)⟩
  | .normalField f, h => by
    unfold ElementFits at h
    unfold tidy ElementFits
    exact ⟨h.1, fieldFits_sort hsort h.2.1, h.2.2⟩
  | .mapField f, h => by
    unfold ElementFits at h
    unfold tidy ElementFits
    exact ⟨h.1, fieldFits_sort hsort h.2.1, h.2.2⟩
  | .oneofField f, h => by
    unfold ElementFits at h
    unfold tidy ElementFits
    exact ⟨h.1, fieldFits_sort hsort h.2.1, h.2.2⟩

theorem fits_tidyAll {sort : List Opt → List Opt} (hsort : ∀ l, (sort l).Perm l) (isProto2 : Bool)
    (around : Around) : ∀ es : List Element, ElementsFit isProto2 around es →
    ElementsFit isProto2 around (tidyAll sort es)
  | [], h => by unfold tidyAll; exact h
  | e :: es, h => by
    unfold ElementsFit at h
    unfold tidyAll ElementsFit
    exact ⟨fits_tidy hsort isProto2 around e h.1, fits_tidyAll hsort isProto2 around es h.2⟩

end

theorem mem_syntaxes {s : Syntax} {es : List Element} (h : s ∈ syntaxesAmong es) : .syntax s ∈ es := by
  obtain ⟨e, he, hs⟩ := List.mem_filterMap.1 h
  cases e <;> cases hs
  exact he

theorem mem_packages {s : Package} {es : List Element} (h : s ∈ packagesAmong es) : .package s ∈ es := by
  obtain ⟨e, he, hs⟩ := List.mem_filterMap.1 h
  cases e <;> cases hs
  exact he

theorem mem_imports {s : Import} {es : List Element} (h : s ∈ importsAmong es) : .import s ∈ es := by
  obtain ⟨e, he, hs⟩ := List.mem_filterMap.1 h
  cases e <;> cases hs
  exact he

theorem mem_options {s : Opt} {es : List Element} (h : s ∈ optionsAmong es) : .option s ∈ es := by
  obtain ⟨e, he, hs⟩ := List.mem_filterMap.1 h
  cases e <;> cases hs
  exact he

/-! ## The sections of a file -/

theorem lines_syntax {s : Syntax} {isProto2 : Bool} (h : ElementFits isProto2 .none (.syntax s)) :
    Lines keep (syntaxItems (some s)) (elementToks keep isProto2 (.syntax s)) := by
  unfold ElementFits at h
  obtain ⟨_, hc, hi, hv⟩ := h
  unfold syntaxItems elementToks
  have h1 : Gives keep (s%"syntax = \"" ++ s.value ++ s%"\";")
      [.word s%"syntax", .sym '=', .str '"' s.value, .sym ';'] := by
    have := ((closed_of_run (keep := keep) (a := s%"syntax = ") (ts := [.word s%"syntax", .sym '=']) rfl).append
      ((closed_str (.inl rfl) hv).append (closed_of_run (keep := keep) (a := s%";") (ts := [.sym ';']) rfl))).gives
    simpa using this
  have := (((lines_note (keep := keep) hc).append (lines_gap (s.comment.isSome = true))).append (lines_noted h1 hi)).append lines_blank
  rw [wrap_eq]
  simpa using this

theorem lines_package {p : Package} {isProto2 : Bool} (h : ElementFits isProto2 .none (.package p)) :
    Lines keep (packageItems (some p)) (elementToks keep isProto2 (.package p)) := by
  unfold ElementFits at h
  obtain ⟨_, hc, hi, hv⟩ := h
  unfold packageItems elementToks
  have h1 : Gives keep (s%"package " ++ p.name ++ s%";") [.word s%"package", .word p.name, .sym ';'] :=
    ((closed_of_run (keep := keep) (a := s%"package ") (ts := [.word s%"package"]) rfl).before (gives_word hv)).ends
      (ends_of_run (keep := keep) (c := ';') (b := []) (ts := [.sym ';']) (by decide) rfl)
  have := ((lines_note (keep := keep) hc).append (lines_noted h1 hi)).append lines_blank
  rw [wrap_eq]
  simpa using this

theorem lines_import {i : Import} {isProto2 : Bool} (h : ElementFits isProto2 .none (.import i)) :
    Lines keep (importItems i) (elementToks keep isProto2 (.import i)) := by
  unfold ElementFits at h
  obtain ⟨_, hc, hi, hv, hk⟩ := h
  unfold importItems elementToks
  have h0 : Closed keep (s%"import " ++ (if i.kind = [] then [] else i.kind ++ s%" "))
      (.word s%"import" :: (if i.kind = [] then [] else [.word i.kind])) := by
    simp only [List.mem_cons, List.not_mem_nil, or_false] at hk
    obtain ⟨p, c, f, kind, i⟩ := i
    dsimp only at hk ⊢
    rcases hk with rfl | rfl | rfl <;> exact closed_of_run rfl
  have h1 := (h0.append ((closed_str (.inl rfl) hv).append (closed_of_run (keep := keep) (a := s%";") (ts := [.sym ';']) rfl))).gives
  have h2 : Gives keep (s%"import " ++ (if i.kind = [] then [] else i.kind ++ s%" ") ++ s%"\"" ++ i.filename ++ s%"\";")
      (.word s%"import" :: (if i.kind = [] then [] else [.word i.kind]) ++ [.str '"' i.filename, .sym ';']) := by
    simpa using h1
  rw [wrap_eq]
  exact (lines_note (keep := keep) hc).append (lines_noted h2 hi)

theorem lines_option_list {os : List Opt} (h : ∀ o ∈ os, OptionFits o)
    (hn : problemsOf (fileOptionItems os) = []) (isProto2 : Bool) :
    Lines keep (fileOptionItems os) (elementsToks keep isProto2 (os.map .option)) := by
  unfold fileOptionItems at hn ⊢
  rw [elementsToks_map]
  by_cases ho : os = []
  · rw [if_pos ho, ho]
    exact lines_nil
  · rw [if_neg ho] at hn ⊢
    have h1 := problems_flatMap (problems_append hn).1
    have := (lines_flatMap (keep := keep) (f := optionStatement) (g := fun o => elementToks keep isProto2 (.option o)) (l := os)
      fun o hm => by unfold elementToks; exact lines_optionStatement (h o hm) (h1 o hm)).append lines_blank
    simpa using this

theorem lines_import_list {is : List Import} {isProto2 : Bool}
    (h : ∀ i ∈ is, ElementFits isProto2 .none (.import i)) :
    Lines keep (fileImportItems is) (elementsToks keep isProto2 (is.map .import)) := by
  unfold fileImportItems
  rw [elementsToks_map]
  by_cases ho : is = []
  · rw [if_pos ho, ho]
    exact lines_nil
  · rw [if_neg ho]
    have := (lines_flatMap (keep := keep) (f := importItems) (g := fun o => elementToks keep isProto2 (.import o)) (l := is)
      fun o hm => lines_import (h o hm)).append lines_blank
    simpa using this

theorem lines_rest {sort : List Opt → List Opt} (hsort : ∀ l, (sort l).Perm l) {isProto2 : Bool} :
    ∀ {es : List Element}, ElementsFit isProto2 .none es → QuietAll keep es →
    problemsOf (es.flatMap (elementItems sort isProto2 .none)) = [] →
    Lines keep (es.flatMap (elementItems sort isProto2 .none))
      (elementsToks keep isProto2 (tidyAll sort (es.filter staysPut)))
  | [], _, _, _ => by
    rw [List.filter_nil, tidyAll_nil, elementsToks_nil]
    exact lines_nil
  | e :: es, h, hk, hn => by
    unfold ElementsFit at h
    unfold QuietAll at hk
    rw [List.flatMap_cons] at hn ⊢
    obtain ⟨h1, h2⟩ := problems_append hn
    have ih := lines_rest (keep := keep) hsort h.2 hk.2 h2
    cases hs : staysPut e with
    | true =>
      rw [List.filter_cons_of_pos hs]
      unfold tidyAll elementsToks
      exact (lines_element hsort isProto2 .none e (.inl hs) h.1 hk.1 h1).append ih
    | false =>
      rw [List.filter_cons_of_neg (by simp [hs])]
      have : elementItems sort isProto2 .none e = [] := by
        cases e <;> first | cases hs | skip
        all_goals (unfold elementItems; rfl)
      rw [this]
      exact ih

theorem lines_top {sort : List Opt → List Opt} {isProto2 isProto2' : Bool} : ∀ {es : List Element},
    ElementsFit isProto2 .none es → (∀ e ∈ es, isComment e = true) →
    Lines keep (es.flatMap (elementItems sort isProto2' .none)) (elementsToks keep isProto2 es)
  | [], _, _ => by rw [elementsToks_nil]; exact lines_nil
  | e :: es, h, hc => by
    unfold ElementsFit at h
    have he := hc e (List.mem_cons_self ..)
    have ih := lines_top (keep := keep) (sort := sort) (isProto2' := isProto2') h.2 fun d hd => hc d (List.mem_cons_of_mem _ hd)
    cases e <;> first | cases he | skip
    rw [List.flatMap_cons]
    have h1 := h.1
    unfold ElementFits at h1
    conv => arg 2; arg 1; unfold elementItems
    unfold elementsToks elementToks
    have := ((lines_note (keep := keep) h1).append lines_blank).append ih
    rw [List.append_nil] at this
    exact this

/-- Without problems there is one syntax and one package declaration at most. -/
theorem no_duplicates : ∀ {es : List Element} {a b : Bool}, problemsOf (duplicateItems.go a b es) = [] →
    duplicateItems.go a b es = [] ∧ (syntaxesAmong es).length + (if a then 1 else 0) ≤ 1 ∧
      (packagesAmong es).length + (if b then 1 else 0) ≤ 1
  | [], a, b, _ => ⟨rfl, by cases a <;> decide, by cases b <;> decide⟩
  | e :: es, a, b, h => by
    cases e with
    | «syntax» s =>
      unfold duplicateItems.go at h ⊢
      obtain ⟨h1, h2⟩ := problems_append h
      obtain ⟨i1, i2, i3⟩ := no_duplicates h2
      cases a with
      | true => cases h1
      | false =>
        refine ⟨by rw [i1]; rfl, ?_, i3⟩
        have : syntaxesAmong (.syntax s :: es) = s :: syntaxesAmong es := rfl
        rw [this]
        simpa using i2
    | package p =>
      unfold duplicateItems.go at h ⊢
      obtain ⟨h1, h2⟩ := problems_append h
      obtain ⟨i1, i2, i3⟩ := no_duplicates h2
      cases b with
      | true => cases h1
      | false =>
        refine ⟨by rw [i1]; rfl, i2, ?_⟩
        have : packagesAmong (.package p :: es) = p :: packagesAmong es := rfl
        rw [this]
        simpa using i3
    | _ =>
      unfold duplicateItems.go at h ⊢
      exact no_duplicates h

theorem lines_head_syntax {l : List Syntax} {isProto2 : Bool} (hl : l.length ≤ 1)
    (h : ∀ s ∈ l, ElementFits isProto2 .none (.syntax s)) :
    Lines keep (syntaxItems l.head?) (elementsToks keep isProto2 (l.map .syntax)) := by
  rw [elementsToks_map]
  match l, hl with
  | [], _ => exact lines_nil
  | [s], _ => simpa using lines_syntax (h s (List.mem_cons_self ..))

theorem lines_head_package {l : List Package} {isProto2 : Bool} (hl : l.length ≤ 1)
    (h : ∀ s ∈ l, ElementFits isProto2 .none (.package s)) :
    Lines keep (packageItems l.head?) (elementsToks keep isProto2 (l.map .package)) := by
  rw [elementsToks_map]
  match l, hl with
  | [], _ => exact lines_nil
  | [s], _ => simpa using lines_package (h s (List.mem_cons_self ..))

/-- The declarations of a file in the order of the formatter, with other options and without the
comments at the top. -/
def sections (sort : List Opt → List Opt) (os : List Opt) (imports : List Import) (es : List Element) :
    List Element :=
  (syntaxesAmong es).map .syntax ++ (packagesAmong es).map .package ++ os.map .option ++
    imports.map .import ++ tidyAll sort ((es.dropWhile isComment).filter staysPut)

theorem fits_sections {sort : List Opt → List Opt} (hsort : ∀ l, (sort l).Perm l)
    {imports : List Import} {es : List Element} (himp : imports.Perm (importsAmong es)) {isProto2 : Bool}
    {os : List Opt} (ho : ∀ o ∈ os, OptionFits o) (h : ElementsFit isProto2 .none es) :
    ElementsFit isProto2 .none (sections sort os imports es) := by
  have h := elementsFit_iff.1 h
  have rest : ElementsFit isProto2 .none ((es.dropWhile isComment).filter staysPut) :=
    elementsFit_iff.2 fun e he => h e ((List.dropWhile_sublist _).subset (List.mem_filter.1 he).1)
  refine elementsFit_iff.2 fun e he => ?_
  unfold sections at he
  simp only [List.mem_append, List.mem_map] at he
  rcases he with (((⟨s, hs, rfl⟩ | ⟨p, hp, rfl⟩) | ⟨o, hm, rfl⟩) | ⟨i, hi, rfl⟩) | he
  · exact h _ (mem_syntaxes hs)
  · exact h _ (mem_packages hp)
  · unfold ElementFits; exact ho o hm
  · exact h _ (mem_imports (himp.mem_iff.1 hi))
  · exact elementsFit_iff.1 (fits_tidyAll hsort isProto2 .none _ rest) e he

theorem quietAll_iff {es : List Element} : QuietAll keep es ↔ ∀ e ∈ es, QuietIn keep e := by
  induction es with
  | nil => exact ⟨fun _ _ h => (List.not_mem_nil h).elim, fun _ => by unfold QuietAll; trivial⟩
  | cons e es ih => unfold QuietAll; rw [ih, List.forall_mem_cons]

/-- The tokens of a file. -/
theorem lines_file {sort : List Opt → List Opt} (hsort : ∀ l, (sort l).Perm l) {imports : List Import}
    {es : List Element} (himp : imports.Perm (importsAmong es)) {isProto2 : Bool} {top : List Item}
    {ts : List Token} (ht : Lines keep top ts) {os : List Opt} (ho : ∀ o ∈ os, OptionFits o)
    (h : ElementsFit isProto2 .none es) (hk : QuietAll keep es)
    (hn : problemsOf (fileItems sort isProto2 top os imports es) = []) :
    Lines keep (fileItems sort isProto2 top os imports es)
      (ts ++ elementsToks keep isProto2 (sections sort os imports es)) := by
  have hm := elementsFit_iff.1 h
  unfold fileItems at hn ⊢
  unfold sections
  obtain ⟨hn, n7⟩ := problems_append hn
  obtain ⟨hn, n6⟩ := problems_append hn
  obtain ⟨hn, n5⟩ := problems_append hn
  obtain ⟨hn, n4⟩ := problems_append hn
  obtain ⟨hn, n3⟩ := problems_append hn
  obtain ⟨n1, n2⟩ := problems_append hn
  obtain ⟨d1, d2, d3⟩ := no_duplicates n1
  have dup : duplicateItems es = [] := d1
  rw [dup, List.nil_append]
  simp only [elementsToks_append]
  simp only [← List.append_assoc]
  refine (((Lines.append ?_ ?_).append ?_).append ?_).append ?_
  · exact ht.append (lines_head_syntax (by simpa using d2) fun s hs => hm _ (mem_syntaxes hs))
  · exact lines_head_package (by simpa using d3) fun s hs => hm _ (mem_packages hs)
  · exact lines_option_list ho n5 isProto2
  · exact lines_import_list fun i hi => hm _ (mem_imports (himp.mem_iff.1 hi))
  · exact lines_rest hsort (elementsFit_iff.2 fun e he => hm e ((List.dropWhile_sublist _).subset he))
      (quietAll_iff.2 fun e he => quietAll_iff.1 hk e ((List.dropWhile_sublist _).subset he)) n7

/-! ## Reading the file -/

theorem readElements_file (isProto2 : Bool) : ∀ (es : List Element) (n : Nat),
    ElementsFit isProto2 .none es → (elementsToks false isProto2 es).length + 1 ≤ n →
    readElements .none n (elementsToks false isProto2 es) = some (bareAll es, [])
  | [], n, _, hn => by
    obtain ⟨n, rfl⟩ : ∃ m, n = m + 1 := ⟨n - 1, by omega⟩
    unfold elementsToks readElements bareAll
    rw [if_pos ⟨rfl, rfl⟩]
  | e :: es, n, h, hn => by
    have he : ElementFits isProto2 .none e ∧ ElementsFit isProto2 .none es := by
      unfold ElementsFit at h; exact h
    unfold elementsToks at hn ⊢
    cases hc : isComment e with
    | true =>
      cases e with
      | comment c =>
        unfold elementToks at hn ⊢
        unfold bareAll
        exact readElements_file isProto2 es n he.2 hn
      | _ => cases hc
    | false =>
      simp only [List.length_append] at hn
      obtain ⟨w, ts, hw⟩ := element_head isProto2 hc
      have hlen : 1 ≤ (elementToks false isProto2 e).length := by rw [hw]; simp
      obtain ⟨n, rfl⟩ : ∃ m, n = m + 1 := ⟨n - 1, by omega⟩
      rw [bareAll_cons hc]
      unfold readElements
      rw [if_neg (by rw [hw]; exact fun h => nomatch h.2), if_pos rfl]
      dsimp only
      rw [readElement_toks isProto2 .none e n _ hc he.1 (by omega)]
      dsimp only [Option.bind_some]
      rw [readElements_file isProto2 es n he.2 (by omega)]
      rfl

theorem readFile_finish {items : List Item} {isProto2 : Bool} {es : List Element}
    (h : Lines false items (elementsToks false isProto2 es)) (hf : ElementsFit isProto2 .none es) :
    readFile (finish items) = some (bareAll es) := by
  unfold readFile
  rw [tokensOf_finish h]
  dsimp only [Option.bind_some]
  rw [readElements_file isProto2 es _ hf (Nat.le_refl _)]
  rfl

end Verif.Format
