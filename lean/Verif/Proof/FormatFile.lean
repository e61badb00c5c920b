import Verif.Proof.FormatText

/-! # Lines that are kept, files in order, fixed files -/

namespace Verif.Format

open Verif Str Proto Spec

/-! ## Lines -/

theorem splitChar_append_split (c : Char) (a b : Str) :
    splitChar c (a ++ c :: b) = splitChar c a ++ splitChar c b := by
  induction hn : a.length using Nat.strongRecOn generalizing a with
  | ind n ih =>
    by_cases hm : c ∈ a
    · obtain ⟨w, rest, rfl, hw⟩ := List.eq_append_cons_of_mem hm
      rw [List.append_assoc, List.cons_append, splitChar_append c hw, splitChar_append c hw,
        ih rest.length (by simp at hn; omega) rest rfl]
      rfl
    · rw [splitChar_append c hm, splitChar_of_not_mem hm]
      rfl

/-- A stretch between newlines is a line. -/
theorem mem_lines {a l b : Str} (ha : a = [] ∨ a.getLast? = some '\n') (hl : '\n' ∉ l) :
    l ∈ splitChar '\n' (a ++ (l ++ '\n' :: b)) := by
  have hb : l ∈ splitChar '\n' (l ++ '\n' :: b) := by
    rw [splitChar_append _ hl]; exact List.mem_cons_self ..
  rcases ha with rfl | ha
  · exact hb
  · have hne : a ≠ [] := by rintro rfl; cases ha
    rw [List.getLast?_eq_some_getLast hne] at ha
    have he := List.dropLast_concat_getLast hne
    rw [Option.some.inj ha] at he
    rw [← he, List.append_assoc, List.singleton_append, splitChar_append_split, List.mem_append]
    exact .inr hb

/-- If a text with white space in front has a part that begins with another character, the white
space is in front of the part. -/
theorem leading_space {ws a s rest : Str} {c : Char} (hws : ∀ x ∈ ws, isSpace x = true)
    (hc : isSpace c = false) (h : ws ++ s = a ++ c :: rest) : ∃ a', a = ws ++ a' := by
  rcases List.append_eq_append_iff.1 h with ⟨a', h1, _⟩ | ⟨b', h1, h2⟩
  · exact ⟨a', h1⟩
  · cases b' with
    | nil => exact ⟨[], by simpa using h1.symm⟩
    | cons x b' =>
      rw [List.cons_append] at h2
      have hx : c = x := (List.cons.inj h2).1
      have := hws x (by rw [h1]; simp)
      rw [← hx, hc] at this
      cases this

theorem trimSpace_parts' (s : Str) : ∃ a b, s = a ++ trimSpace s ++ b ∧
    (∀ c ∈ a, isSpace c = true) ∧ ∀ c ∈ b, isSpace c = true := by
  unfold trimSpace trimLeftBy
  refine ⟨s.takeWhile isSpace, ((s.dropWhile isSpace).reverse.takeWhile isSpace).reverse, ?_,
    fun c hc => mem_takeWhile hc, fun c hc => mem_takeWhile (List.mem_reverse.1 hc)⟩
  unfold trimRightBy
  rw [List.append_assoc, ← List.reverse_append, List.takeWhile_append_dropWhile, List.reverse_reverse,
    List.takeWhile_append_dropWhile]

/-- A line that is not indented and not blank is a line of the text. -/
theorem hasLine_finish {items : List Item} {t : Str} {c : Char} (hm : flush t ∈ items)
    (hnl : '\n' ∉ t) (hc : (trimRightBy isSpace t).head? = some c) (hsp : isSpace c = false) :
    HasLine (finish items) (trimRightBy isSpace t) := by
  obtain ⟨before, after, rfl⟩ := List.append_of_mem hm
  have htext : textOf (before ++ flush t :: after) =
      textOf before ++ (trimRightBy isSpace t ++ '\n' :: textOf after) := by
    rw [textOf_append, show flush t :: after = [flush t] ++ after from rfl, textOf_append]
    simp [textOf, lineText]
  obtain ⟨ws1, ws2, he, hw1, hw2⟩ := trimSpace_parts' (textOf (before ++ flush t :: after))
  generalize htrim : trimSpace (textOf (before ++ flush t :: after)) = s at he
  generalize hl : trimRightBy isSpace t = l at hc htext ⊢
  cases l with
  | nil => cases hc
  | cons c' l =>
    cases Option.some.inj hc
    have hlnl : '\n' ∉ c :: l := by
      rw [← hl]; exact fun h => hnl ((trimRightBy_prefix _ _).subset h)
    obtain ⟨a', ha'⟩ := leading_space (rest := l ++ '\n' :: textOf after) hw1 hsp (by
      rw [← List.append_assoc, ← he, htext]; rfl)
    -- the same from behind
    have h2 : s ++ ws2 = a' ++ (c :: l ++ '\n' :: textOf after) := by
      have : ws1 ++ (s ++ ws2) = ws1 ++ (a' ++ (c :: l ++ '\n' :: textOf after)) := by
        rw [← List.append_assoc, ← he, htext, ha', List.append_assoc]
      exact List.append_cancel_left this
    obtain ⟨d, hd⟩ : ∃ d, (c :: l).getLast? = some d := ⟨_, List.getLast?_eq_some_getLast (List.cons_ne_nil _ _)⟩
    have hdsp : isSpace d = false := by rw [← hl] at hd; exact getLast?_trimRightBy hd
    obtain ⟨b', hb'⟩ := leading_space (ws := ws2.reverse) (a := ('\n' :: textOf after).reverse)
      (s := s.reverse) (c := d) (rest := (c :: l).dropLast.reverse ++ a'.reverse)
      (fun x hx => hw2 x (List.mem_reverse.1 hx)) hdsp (by
        have := congrArg List.reverse h2
        rw [List.reverse_append, List.reverse_append, List.reverse_append] at this
        rw [this]
        have hlast : (c :: l).reverse = d :: (c :: l).dropLast.reverse := by
          have hne := List.cons_ne_nil c l
          have e := List.dropLast_concat_getLast hne
          rw [List.getLast?_eq_some_getLast hne] at hd
          rw [Option.some.inj hd] at e
          conv => lhs; rw [← e]
          rw [List.reverse_append]
          rfl
        rw [hlast, List.append_assoc, List.cons_append])
    have hb : '\n' :: textOf after = b'.reverse ++ ws2 := by
      have := congrArg List.reverse hb'
      rw [List.reverse_append, List.reverse_reverse, List.reverse_reverse] at this
      exact this
    have hs : s = a' ++ (c :: l ++ b'.reverse) := by
      rw [hb] at h2
      have : s ++ ws2 = (a' ++ (c :: l ++ b'.reverse)) ++ ws2 := by
        rw [h2]; simp
      exact List.append_cancel_right this
    have hfin : finish (before ++ flush t :: after) = a' ++ (c :: l ++ (b'.reverse ++ ['\n'])) := by
      unfold finish
      rw [htrim, if_neg (by rw [hs]; simp), hs]
      simp
    have hnext : ∃ b'', b'.reverse ++ ['\n'] = '\n' :: b'' := by
      cases hbr : b'.reverse with
      | nil => exact ⟨[], rfl⟩
      | cons x b2 =>
        rw [hbr, List.cons_append] at hb
        exact ⟨b2 ++ ['\n'], by rw [(List.cons.inj hb).1]; rfl⟩
    obtain ⟨b'', hb''⟩ := hnext
    unfold HasLine
    rw [hfin, hb'']
    refine mem_lines ?_ hlnl
    by_cases hane : a' = []
    · exact .inl hane
    · right
      have : (textOf before).getLast? = a'.getLast? := by
        rw [ha', List.getLast?_append, List.getLast?_eq_some_getLast hane]; rfl
      have h3 := List.getLast?_eq_some_getLast hane
      rw [h3]
      congr 1
      exact textOf_ends before _ (by rw [this, h3])

theorem trimRight_head {t : Str} {c : Char} (h : t.head? = some c) (hsp : isSpace c = false) :
    (trimRightBy isSpace t).head? = some c := by
  cases t with
  | nil => cases h
  | cons x t =>
    cases Option.some.inj h
    obtain ⟨ws, hws⟩ := trimRightBy_append_spaces (c :: t)
    cases hr : trimRightBy isSpace (c :: t) with
    | nil =>
      exfalso
      unfold trimRightBy at hr
      have h1 := congrArg List.reverse hr
      rw [List.reverse_reverse] at h1
      have h2 := List.takeWhile_append_dropWhile (p := isSpace) (l := (c :: t).reverse)
      rw [h1, List.reverse_nil, List.append_nil] at h2
      have : c ∈ ((c :: t).reverse).takeWhile isSpace := by rw [h2]; simp
      rw [mem_takeWhile this] at hsp
      cases hsp
    | cons y r =>
      rw [hr, List.cons_append] at hws
      rw [(List.cons.inj hws).1]
      rfl

/-! ## A file in order -/

theorem among_map_option (l : List Opt) : optionsAmong (l.map .option) = l := by
  unfold optionsAmong
  induction l with
  | nil => rfl
  | cons o l ih => rw [List.map_cons, List.filterMap_cons]; exact congrArg _ ih

theorem onLine_perm {a b : List Opt} (h : a.Perm b) : onLine a = onLine b := by
  match b, h with
  | [], h => rw [List.perm_nil.1 h]
  | [o], h => rw [List.perm_singleton.1 h]
  | o :: p :: b, h =>
    have hl := h.length_eq
    match a with
    | [] => cases hl
    | [_] => simp at hl
    | _ :: _ :: _ => rfl

theorem nil_perm {α : Type} {a b : List α} (h : a.Perm b) : a = [] ↔ b = [] := by
  constructor
  · rintro rfl; exact List.nil_perm.1 h
  · rintro rfl; exact List.perm_nil.1 h

theorem field_sorted {sort : List Opt → List Opt} (hp : ∀ l, (sort l).Perm l) (d : Str)
    (c i : Option Comment) (os : List Opt) (h : sort (sort os) = sort os) :
    fieldItems sort d c i (sort os) = fieldItems sort d c i os := by
  unfold fieldItems
  rw [onLine_perm (hp os), h]
  simp only [nil_perm (hp os)]

theorem tidyAll_length (sort : List Opt → List Opt) (es : List Element) :
    (tidyAll sort es).length = es.length := by
  induction es with
  | nil => unfold tidyAll; rfl
  | cons e es ih => unfold tidyAll; rw [List.length_cons, ih, List.length_cons]

theorem tidyAll_eq (sort : List Opt → List Opt) (es : List Element) :
    tidyAll sort es = es.map (tidy sort) := by
  induction es with
  | nil => unfold tidyAll; rfl
  | cons e es ih => unfold tidyAll; rw [ih]; rfl

section
variable {sort : List Opt → List Opt} (hp : ∀ l, (sort l).Perm l) (isProto2 : Bool)
include hp

mutual

theorem tidy_items : ∀ (around : Around) (e : Element),
    (∀ l ∈ optionLists e, sort (sort l) = sort l) →
    elementItems sort isProto2 around (tidy sort e) = elementItems sort isProto2 around e
  | around, .message m es, h => by
    unfold optionLists at h
    unfold tidy elementItems
    rw [tidyAll_length, tidyAll_items _ es h]
  | around, .enum m es, h => by
    unfold optionLists at h
    unfold tidy elementItems
    rw [tidyAll_length, tidyAll_items _ es h]
  | around, .service m es, h => by
    unfold optionLists at h
    unfold tidy elementItems
    rw [tidyAll_length, tidyAll_items _ es h]
  | around, .oneof m es, h => by
    unfold optionLists at h
    unfold tidy elementItems
    rw [tidyAll_length, tidyAll_items _ es h]
  | around, .group m es, h => by
    unfold optionLists at h
    unfold tidy elementItems
    rw [tidyAll_length, tidyAll_items _ es h]
  | around, .enumField f es, h => by
    unfold optionLists at h
    unfold tidy elementItems
    rw [among_map_option, field_sorted hp _ _ _ _ (h _ (List.mem_singleton.2 rfl))]
  | around, .rpc r es, h => by
    unfold optionLists at h
    unfold tidy elementItems rpcItems
    rw [among_map_option, h _ (List.mem_singleton.2 rfl)]
    simp only [nil_perm (hp (optionsAmong es))]
  | around, .normalField f, h => by
    unfold optionLists at h
    unfold tidy elementItems
    exact field_sorted hp _ _ _ _ (h _ (List.mem_singleton.2 rfl))
  | around, .mapField f, h => by
    unfold optionLists at h
    unfold tidy elementItems
    exact field_sorted hp _ _ _ _ (h _ (List.mem_singleton.2 rfl))
  | around, .oneofField f, h => by
    unfold optionLists at h
    unfold tidy elementItems
    exact field_sorted hp _ _ _ _ (h _ (List.mem_singleton.2 rfl))
  | around, .comment c, h => by unfold tidy; rfl
  | around, .syntax c, h => by unfold tidy; rfl
  | around, .package c, h => by unfold tidy; rfl
  | around, .option c, h => by unfold tidy; rfl
  | around, .import c, h => by unfold tidy; rfl
  | around, .reserved c, h => by unfold tidy; rfl
  | around, .extensions c, h => by unfold tidy; rfl

theorem tidyAll_items : ∀ (around : Around) (es : List Element),
    (∀ l ∈ optionListsAll es, sort (sort l) = sort l) →
    elementsItems sort isProto2 around (tidyAll sort es) = elementsItems sort isProto2 around es
  | around, [], h => by unfold tidyAll; rfl
  | around, e :: es, h => by
    unfold optionListsAll at h
    unfold tidyAll elementsItems
    rw [tidy_items around e fun l hl => h l (List.mem_append_left _ hl),
      tidyAll_items around es fun l hl => h l (List.mem_append_right _ hl)]

end

end

/-- Declarations that move print nothing in their place. -/
theorem stays_items (sort : List Opt → List Opt) (isProto2 : Bool) (es : List Element) :
    (es.filter staysPut).flatMap (elementItems sort isProto2 .none) =
      es.flatMap (elementItems sort isProto2 .none) := by
  induction es with
  | nil => rfl
  | cons e es ih =>
    rw [List.filter_cons, List.flatMap_cons]
    by_cases he : staysPut e = true
    · rw [if_pos he, List.flatMap_cons, ih]
    · rw [if_neg he, ih]
      cases e <;> first
        | exact absurd rfl he
        | (unfold elementItems; first | rfl | (unfold innerOptionItems; rfl))

theorem lists_mem {es : List Element} {l : List Opt} :
    l ∈ optionListsAll es ↔ ∃ e ∈ es, l ∈ optionLists e := by
  induction es with
  | nil => unfold optionListsAll; simp
  | cons e es ih => unfold optionListsAll; rw [List.mem_append, ih]; simp

/-! ### What is in a file in order -/

theorem takeWhile_append_stop {α : Type} {p : α → Bool} {a b : List α} (ha : ∀ x ∈ a, p x = true)
    (hb : ∀ x, b.head? = some x → p x = false) :
    (a ++ b).takeWhile p = a ∧ (a ++ b).dropWhile p = b := by
  induction a with
  | nil =>
    cases b with
    | nil => exact ⟨rfl, rfl⟩
    | cons x b =>
      have := hb x rfl
      rw [List.nil_append, List.takeWhile_cons, List.dropWhile_cons, this]
      exact ⟨rfl, rfl⟩
  | cons x a ih =>
    have hx := ha x List.mem_cons_self
    have ih := ih fun y hy => ha y (List.mem_cons_of_mem _ hy)
    rw [List.cons_append, List.takeWhile_cons, List.dropWhile_cons, hx, if_pos rfl, if_pos rfl, ih.1, ih.2]
    exact ⟨rfl, rfl⟩

/-- The declaration of a kind a function picks out. -/
structure Picks {α : Type} (f : Element → Option α) : Prop where
  stays : ∀ e, staysPut e = true → f e = none

theorem comment_stays {e : Element} (h : isComment e = true) : staysPut e = true := by
  cases e <;> first | rfl | cases h

theorem Picks.lead {α : Type} {f : Element → Option α} (h : Picks f) (es : List Element) :
    (es.takeWhile isComment).filterMap f = [] := by
  rw [List.filterMap_eq_nil_iff]
  exact fun e he => h.stays e (comment_stays (mem_takeWhile' he))
where
  mem_takeWhile' {es : List Element} {e : Element} (h : e ∈ es.takeWhile isComment) : isComment e = true := by
    induction es with
    | nil => cases h
    | cons x es ih =>
      rw [List.takeWhile_cons] at h
      split at h
      · rcases List.mem_cons.1 h with rfl | h
        · assumption
        · exact ih h
      · cases h

theorem tidy_stays (sort : List Opt → List Opt) (e : Element) : staysPut (tidy sort e) = staysPut e := by
  cases e <;> (unfold tidy; rfl)

theorem tidy_comment (sort : List Opt → List Opt) (e : Element) : isComment (tidy sort e) = isComment e := by
  cases e <;> (unfold tidy; rfl)

theorem Picks.rest {α : Type} {f : Element → Option α} (h : Picks f) (sort : List Opt → List Opt)
    (es : List Element) : (tidyAll sort (es.filter staysPut)).filterMap f = [] := by
  rw [tidyAll_eq, List.filterMap_eq_nil_iff]
  intro e he
  obtain ⟨x, hx, rfl⟩ := List.mem_map.1 he
  exact h.stays _ (by rw [tidy_stays]; exact (List.mem_filter.1 hx).2)

theorem Picks.lead_drop {α : Type} {f : Element → Option α} (h : Picks f) (es : List Element) :
    es.filterMap f = (es.dropWhile isComment).filterMap f := by
  conv => lhs; rw [← List.takeWhile_append_dropWhile (p := isComment) (l := es)]
  rw [List.filterMap_append, h.lead, List.nil_append]

theorem filterMap_map_some {α β : Type} (f : β → Option α) (g : α → β) (h : ∀ a, f (g a) = some a)
    (l : List α) : (l.map g).filterMap f = l := by
  rw [List.filterMap_map, show f ∘ g = some from funext h]
  exact List.filterMap_some

theorem filterMap_map_none {α β γ : Type} (f : β → Option γ) (g : α → β) (h : ∀ a, f (g a) = none)
    (l : List α) : (l.map g).filterMap f = [] := by
  rw [List.filterMap_eq_nil_iff]
  intro x hx
  obtain ⟨a, _, rfl⟩ := List.mem_map.1 hx
  exact h a

theorem Picks.file {α : Type} {f : Element → Option α} (h : Picks f) (sort : List Opt → List Opt)
    (sortImports : List Import → List Import) (es : List Element) :
    (tidyFile sort sortImports es).filterMap f =
      (syntaxesAmong es).filterMap (fun s => f (.syntax s)) ++
      (packagesAmong es).filterMap (fun s => f (.package s)) ++
      (sort (optionsAmong es)).filterMap (fun s => f (.option s)) ++
      (sortImports (importsAmong es)).filterMap (fun s => f (.import s)) := by
  unfold tidyFile
  simp only [List.filterMap_append, List.filterMap_map]
  rw [h.lead, h.rest]
  simp only [List.nil_append, List.append_nil]
  rfl

theorem filterMap_none' {α β : Type} (l : List α) : l.filterMap (fun _ => (none : Option β)) = [] := by
  rw [List.filterMap_eq_nil_iff]; exact fun _ _ => rfl

section
variable (sort : List Opt → List Opt) (sortImports : List Import → List Import) (es : List Element)

theorem tidyFile_syntaxes : syntaxesAmong (tidyFile sort sortImports es) = syntaxesAmong es := by
  refine (Picks.file ⟨fun e h => by cases e <;> first | rfl | cases h⟩ sort sortImports es).trans ?_
  show (syntaxesAmong es).filterMap some ++ _ ++ _ ++ _ = _
  rw [filterMap_none', filterMap_none', filterMap_none', List.filterMap_some]
  simp

theorem tidyFile_packages : packagesAmong (tidyFile sort sortImports es) = packagesAmong es := by
  refine (Picks.file ⟨fun e h => by cases e <;> first | rfl | cases h⟩ sort sortImports es).trans ?_
  show _ ++ (packagesAmong es).filterMap some ++ _ ++ _ = _
  rw [filterMap_none', filterMap_none', filterMap_none', List.filterMap_some]
  simp

theorem tidyFile_options : optionsAmong (tidyFile sort sortImports es) = sort (optionsAmong es) := by
  refine (Picks.file ⟨fun e h => by cases e <;> first | rfl | cases h⟩ sort sortImports es).trans ?_
  show _ ++ _ ++ (sort (optionsAmong es)).filterMap some ++ _ = _
  rw [filterMap_none', filterMap_none', filterMap_none', List.filterMap_some]
  simp

theorem tidyFile_imports : importsAmong (tidyFile sort sortImports es) = sortImports (importsAmong es) := by
  refine (Picks.file ⟨fun e h => by cases e <;> first | rfl | cases h⟩ sort sortImports es).trans ?_
  show _ ++ _ ++ _ ++ (sortImports (importsAmong es)).filterMap some = _
  rw [filterMap_none', filterMap_none', filterMap_none', List.filterMap_some]
  simp

end

/-- What follows the comments at the top of a file in order. -/
def tidyRest (sort : List Opt → List Opt) (sortImports : List Import → List Import)
    (es : List Element) : List Element :=
  (syntaxesAmong es).map .syntax ++ (packagesAmong es).map .package ++
  (sort (optionsAmong es)).map .option ++ (sortImports (importsAmong es)).map .import ++
  tidyAll sort ((es.dropWhile isComment).filter staysPut)

theorem head_dropWhile {α : Type} {p : α → Bool} {l : List α} {x : α}
    (h : (l.dropWhile p).head? = some x) : p x = false := by
  induction l with
  | nil => cases h
  | cons y l ih =>
    rw [List.dropWhile_cons] at h
    split at h
    · exact ih h
    · rename_i hy
      cases Option.some.inj h
      simpa using hy

theorem tidyFile_split {sort : List Opt → List Opt} {sortImports : List Import → List Import}
    (hp : ∀ l, (sort l).Perm l) (hi : ∀ l, (sortImports l).Perm l) (es : List Element) :
    (tidyFile sort sortImports es).takeWhile isComment = es.takeWhile isComment ∧
    (tidyFile sort sortImports es).dropWhile isComment = tidyRest sort sortImports es := by
  have hsplit : tidyFile sort sortImports es = es.takeWhile isComment ++ tidyRest sort sortImports es := by
    unfold tidyFile tidyRest; simp
  rw [hsplit]
  refine takeWhile_append_stop (fun x hx => Picks.lead.mem_takeWhile' hx) ?_
  intro x hx
  unfold tidyRest at hx
  generalize hA : (syntaxesAmong es).map Element.syntax ++ (packagesAmong es).map .package ++
    (sort (optionsAmong es)).map .option ++ (sortImports (importsAmong es)).map .import = A at hx
  have hAc : ∀ y ∈ A, isComment y = false := by
    intro y hy
    rw [← hA] at hy
    simp only [List.mem_append, List.mem_map] at hy
    rcases hy with ((⟨_, _, rfl⟩ | ⟨_, _, rfl⟩) | ⟨_, _, rfl⟩) | ⟨_, _, rfl⟩ <;> rfl
  cases A with
  | cons y A =>
    cases Option.some.inj hx
    exact hAc _ List.mem_cons_self
  | nil =>
    have hnil := hA
    simp only [List.append_eq_nil_iff, List.map_eq_nil_iff] at hnil
    obtain ⟨⟨⟨h1, h2⟩, h3⟩, h4⟩ := hnil
    rw [nil_perm (hp _)] at h3
    rw [nil_perm (hi _)] at h4
    have hall : ∀ e ∈ es, staysPut e = true := by
      intro e he
      unfold syntaxesAmong at h1
      unfold packagesAmong at h2
      unfold optionsAmong at h3
      unfold importsAmong at h4
      rw [List.filterMap_eq_nil_iff] at h1 h2 h3 h4
      have e1 := h1 e he
      have e2 := h2 e he
      have e3 := h3 e he
      have e4 := h4 e he
      cases e with
      | «syntax» s => exact absurd e1 (by simp)
      | package s => exact absurd e2 (by simp)
      | option s => exact absurd e3 (by simp)
      | «import» s => exact absurd e4 (by simp)
      | _ => rfl
    have hf : (es.dropWhile isComment).filter staysPut = es.dropWhile isComment := by
      rw [List.filter_eq_self]
      exact fun e he => hall e ((List.dropWhile_suffix _).subset he)
    rw [hf, List.nil_append, tidyAll_eq, List.head?_map] at hx
    cases hd : (es.dropWhile isComment).head? with
    | none => rw [hd] at hx; cases hx
    | some y =>
      rw [hd] at hx
      cases Option.some.inj hx
      rw [tidy_comment]
      exact head_dropWhile hd

/-! ### Duplicates -/

def syntaxProblem (s : Syntax) : Item :=
  .problem ⟨[], s.position.line, s.position.column, [], s%"duplicate syntax specified"⟩

def packageProblem (p : Package) : Item :=
  .problem ⟨[], p.position.line, p.position.column, [], s%"duplicate package specified"⟩

theorem duplicates_go (a b : Bool) (es : List Element) :
    (duplicateItems.go a b es).Perm
      (((if a then syntaxesAmong es else (syntaxesAmong es).tail).map syntaxProblem) ++
        ((if b then packagesAmong es else (packagesAmong es).tail).map packageProblem)) := by
  induction es generalizing a b with
  | nil => unfold duplicateItems.go; cases a <;> cases b <;> exact .refl _
  | cons e es ih =>
    have other : ∀ (_ : duplicateItems.go a b (e :: es) = duplicateItems.go a b es)
        (_ : syntaxesAmong (e :: es) = syntaxesAmong es) (_ : packagesAmong (e :: es) = packagesAmong es),
        (duplicateItems.go a b (e :: es)).Perm
      (((if a then syntaxesAmong (e :: es) else (syntaxesAmong (e :: es)).tail).map syntaxProblem) ++
        ((if b then packagesAmong (e :: es) else (packagesAmong (e :: es)).tail).map packageProblem)) := by
      intro h1 h2 h3
      rw [h1, h2, h3]
      exact ih a b
    cases e with
    | «syntax» s =>
      rw [show syntaxesAmong (.syntax s :: es) = s :: syntaxesAmong es from rfl,
        show packagesAmong (.syntax s :: es) = packagesAmong es from rfl]
      unfold duplicateItems.go
      have := ih true b
      cases a with
      | true => exact this.cons _
      | false => exact this
    | package p =>
      rw [show syntaxesAmong (.package p :: es) = syntaxesAmong es from rfl,
        show packagesAmong (.package p :: es) = p :: packagesAmong es from rfl]
      unfold duplicateItems.go
      have := ih a true
      cases b with
      | true => exact (this.cons (packageProblem p)).trans (List.perm_middle.symm)
      | false => exact this
    | _ => exact other rfl rfl rfl

theorem duplicates_perm {es fs : List Element} (h1 : syntaxesAmong es = syntaxesAmong fs)
    (h2 : packagesAmong es = packagesAmong fs) : (duplicateItems es).Perm (duplicateItems fs) := by
  have a := duplicates_go false false es
  have b := duplicates_go false false fs
  rw [h1, h2] at a
  exact a.trans b.symm

theorem duplicates_text (es : List Element) : textOf (duplicateItems es) = [] := by
  have := duplicates_no_text false false es 0
  rwa [shift_zero] at this

/-! ### The layout of a file in order -/

theorem tidyRest_items {sort : List Opt → List Opt} {sortImports : List Import → List Import}
    (hp : ∀ l, (sort l).Perm l) (isProto2 : Bool) (es : List Element)
    (h : ∀ l ∈ optionListsAll es, sort (sort l) = sort l) :
    (tidyRest sort sortImports es).flatMap (elementItems sort isProto2 .none) =
      (es.dropWhile isComment).flatMap (elementItems sort isProto2 .none) := by
  have none_items : ∀ {α : Type} (l : List α) (g : α → Element),
      (∀ a, elementItems sort isProto2 .none (g a) = []) →
      (l.map g).flatMap (elementItems sort isProto2 .none) = [] := by
    intro α l g hg
    rw [List.flatMap_eq_nil_iff]
    intro x hx
    obtain ⟨a, _, rfl⟩ := List.mem_map.1 hx
    exact hg a
  unfold tidyRest
  simp only [List.flatMap_append]
  rw [none_items _ _ fun a => by unfold elementItems; rfl,
    none_items _ _ fun a => by unfold elementItems; rfl,
    none_items _ _ fun a => by unfold elementItems innerOptionItems; rfl,
    none_items _ _ fun a => by unfold elementItems; rfl]
  rw [← elementsItems_eq, tidyAll_items hp isProto2 .none _ ?_, elementsItems_eq, stays_items]
  · simp
  · intro l hl
    obtain ⟨e, he, hl⟩ := lists_mem.1 hl
    exact h l (lists_mem.2 ⟨e, (List.dropWhile_suffix _).subset (List.mem_filter.1 he).1, hl⟩)

theorem layout_tidy (srt : SortSlice) {q : Params} (hq : q.fix = fixNone) (isProto2 : Bool)
    (es : List Element) (ho : ∀ l ∈ sortedLists es, sortOpts srt (sortOpts srt l) = sortOpts srt l)
    (hi : sortImps srt (sortImps srt (importsAmong es)) = sortImps srt (importsAmong es)) :
    ∃ a b c, layout srt q isProto2 es = a ++ c ∧
      layout srt q isProto2 (tidyFile (sortOpts srt) (sortImps srt) es) = b ++ c ∧
      a.Perm b ∧ textOf a = [] ∧ textOf b = [] := by
  have hp : ∀ l, (sortOpts srt l).Perm l := fun l => srt.perm _ l
  have hpi : ∀ l, (sortImps srt l).Perm l := fun l => srt.perm _ l
  obtain ⟨h1, h2⟩ := tidyFile_split hp hpi es
  refine ⟨duplicateItems es, duplicateItems (tidyFile (sortOpts srt) (sortImps srt) es),
    topItems q es ++ (syntaxItems (syntaxesAmong es).head? ++ (packageItems (packagesAmong es).head? ++
      (fileOptionItems (sortOpts srt (optionsOf q es)) ++
      (fileImportItems (sortImps srt (importsAmong es)) ++
      (es.dropWhile isComment).flatMap (elementItems (sortOpts srt) isProto2 .none))))), ?_, ?_,
    duplicates_perm (tidyFile_syntaxes ..).symm (tidyFile_packages ..).symm, duplicates_text _, duplicates_text _⟩
  · unfold layout fileItems
    simp only [List.append_assoc]
  · unfold layout fileItems
    rw [tidyFile_syntaxes, tidyFile_packages, tidyFile_imports, hi, h2,
      tidyRest_items hp isProto2 es fun l hl => ho l (List.mem_cons_of_mem _ hl)]
    have e1 : optionsOf q (tidyFile (sortOpts srt) (sortImps srt) es) = sortOpts srt (optionsOf q es) := by
      unfold optionsOf
      rw [if_pos hq, if_pos hq, tidyFile_options]
    have e2 : topItems q (tidyFile (sortOpts srt) (sortImps srt) es) = topItems q es := by
      unfold topItems
      rw [h1]
    have e3 : sortOpts srt (sortOpts srt (optionsOf q es)) = sortOpts srt (optionsOf q es) := by
      unfold optionsOf
      rw [if_pos hq]
      exact ho _ List.mem_cons_self
    rw [e1, e2, e3]
    simp only [List.append_assoc]

/-- Formatting the file in order is formatting the file. -/
theorem transform_tidy (srt : SortSlice) {q : Params} (hq : q.fix = fixNone)
    (es : List Element) (ho : ∀ l ∈ sortedLists es, sortOpts srt (sortOpts srt l) = sortOpts srt l)
    (hi : sortImps srt (sortImps srt (importsAmong es)) = sortImps srt (importsAmong es))
    (hcanon : ∀ l l' : List Text.Failure, l.Perm l' → Text.sortFailures l = Text.sortFailures l') :
    transform srt q (tidyFile (sortOpts srt) (sortImps srt) es) = transform srt q es := by
  have hs := tidyFile_syntaxes (sortOpts srt) (sortImps srt) es
  have h2 : proto2Of (tidyFile (sortOpts srt) (sortImps srt) es) = proto2Of es := by
    unfold proto2Of; rw [hs]
  rcases transform_eq srt q (.inl hq) es with ⟨s, hn, hh, he⟩ | ⟨b, hb, he⟩ <;>
  rcases transform_eq srt q (.inl hq) (tidyFile (sortOpts srt) (sortImps srt) es) with
    ⟨s', hn', hh', he'⟩ | ⟨b', hb', he'⟩
  · rw [hs, hh] at hh'
    cases hh'
    rw [he, he']
  · rw [h2, hn] at hb'; cases hb'
  · rw [h2, hb] at hn'; cases hn'
  · rw [h2, hb] at hb'
    cases hb'
    obtain ⟨x, y, c, e1, e2, hperm, t1, t2⟩ := layout_tidy srt hq b es ho hi
    rw [he, he', e1, e2]
    have : finish (y ++ c) = finish (x ++ c) := by
      unfold finish
      rw [textOf_append, textOf_append, t1, t2]
    rw [this, hcanon _ (problemsOf (x ++ c))]
    rw [problemsOf_append, problemsOf_append]
    exact (hperm.symm.filterMap _).append_right _

end Verif.Format
