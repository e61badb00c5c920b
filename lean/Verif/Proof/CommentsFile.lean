import Verif.Proof.Comments

/-! # The comments of a formatted file -/

namespace Verif.Format

open Verif Str Proto Spec

theorem options_perm : ∀ (es : List Element), es.Perm ((optionsAmong es).map Element.option ++ es.filter notOption)
  | [] => .refl _
  | e :: es => by
    have ih := options_perm es
    cases e with
    | option o => exact ih.cons _
    | _ => exact (ih.cons _).trans List.perm_middle.symm

theorem among_drop {α : Type} (f : Element → Option α) (hf : ∀ c, f (.comment c) = none) : ∀ (es : List Element),
    (es.dropWhile isComment).filterMap f = es.filterMap f
  | [] => rfl
  | e :: es => by
    cases e with
    | comment c =>
      rw [List.filterMap_cons_none (hf c), ← among_drop f hf es]
      rfl
    | _ => rfl

theorem among_filter {α : Type} (f : Element → Option α) (hf : ∀ o, f (.option o) = none) : ∀ (es : List Element),
    (es.filter notOption).filterMap f = es.filterMap f
  | [] => rfl
  | e :: es => by
    have ih := among_filter f hf es
    cases e with
    | option c =>
      rw [List.filterMap_cons_none (hf c), ← ih]
      rfl
    | _ =>
      rw [List.filter_cons_of_pos rfl, List.filterMap_cons, List.filterMap_cons, ih]

theorem notOption_options (es : List Element) : optionsAmong (es.filter notOption) = [] := by
  refine List.filterMap_eq_nil_iff.2 fun e he => ?_
  have := (List.mem_filter.1 he).2
  cases e <;> first | rfl | cases this

theorem staysPut_notOption (es : List Element) : (es.filter notOption).filter staysPut = es.filter staysPut := by
  rw [List.filter_filter]
  refine List.filter_congr fun e _ => ?_
  cases e <;> rfl

theorem outside_sections {sort : List Opt → List Opt} (hs : ∀ l, (sort l).Perm l) (os : List Opt)
    (imports : List Import) {es : List Element} (h : AllOutside es) :
    AllOutside (sections sort os imports es) := by
  have h := allOutside_iff.1 h
  refine allOutside_iff.2 fun e he => ?_
  unfold sections at he
  simp only [List.mem_append, List.mem_map] at he
  rcases he with (((⟨s, hs, rfl⟩ | ⟨p, hp, rfl⟩) | ⟨o, hm, rfl⟩) | ⟨i, hi, rfl⟩) | he
  · unfold CommentsOutside; trivial
  · unfold CommentsOutside; trivial
  · unfold CommentsOutside; trivial
  · unfold CommentsOutside; trivial
  · exact allOutside_iff.1 (comments_tidyAll hs _ (allOutside_iff.2 fun e he =>
      h e ((List.dropWhile_sublist _).subset (List.mem_filter.1 he).1))).1 e he

theorem comments_sections {sort : List Opt → List Opt} (hs : ∀ l, (sort l).Perm l) (os : List Opt)
    {imports : List Import} {es : List Element} (himp : imports.Perm (importsAmong es)) (h : AllOutside es) :
    (commentsAmong (sections sort os imports es)).Perm
      (os.flatMap optionComments ++ commentsAmong ((es.dropWhile isComment).filter notOption)) := by
  have ht := (comments_tidyAll hs ((es.dropWhile isComment).filter staysPut) (allOutside_iff.2 fun e he =>
    allOutside_iff.1 h e ((List.dropWhile_sublist _).subset (List.mem_filter.1 he).1))).2
  have hi := commentsAmong_perm (himp.map Element.import)
  have hp := commentsAmong_perm (parts_perm ((es.dropWhile isComment).filter notOption))
  have e1 : syntaxesAmong ((es.dropWhile isComment).filter notOption) = syntaxesAmong es := by
    unfold syntaxesAmong
    rw [among_filter _ fun _ => rfl, among_drop _ fun _ => rfl]
  have e2 : packagesAmong ((es.dropWhile isComment).filter notOption) = packagesAmong es := by
    unfold packagesAmong
    rw [among_filter _ fun _ => rfl, among_drop _ fun _ => rfl]
  have e3 : importsAmong ((es.dropWhile isComment).filter notOption) = importsAmong es := by
    unfold importsAmong
    rw [among_filter _ fun _ => rfl, among_drop _ fun _ => rfl]
  rw [e1, e2, e3, notOption_options, staysPut_notOption, List.map_nil, List.append_nil] at hp
  unfold sections
  simp only [commentsAmong_append] at hp ⊢
  rw [commentsAmong_options]
  refine .trans ((List.Perm.append_left _ hi).append ht) ?_
  refine .trans ?_ (hp.append_left _)
  simp only [List.append_assoc]
  generalize commentsAmong (List.map Element.syntax (syntaxesAmong es)) = A
  generalize commentsAmong (List.map Element.package (packagesAmong es)) = B
  generalize commentsAmong (List.map Element.import (importsAmong es)) = C
  generalize commentsAmong ((es.dropWhile isComment).filter staysPut) = D
  generalize os.flatMap optionComments = O
  have := (List.perm_append_comm (l₁ := A ++ B) (l₂ := O)).append_right (C ++ D)
  simpa only [List.append_assoc] using this

theorem tidyFile_sections (sort : List Opt → List Opt) (sortImports : List Import → List Import)
    (es : List Element) : tidyFile sort sortImports es =
      es.takeWhile isComment ++ sections sort (sort (optionsAmong es)) (sortImports (importsAmong es)) es := by
  unfold tidyFile sections
  simp only [List.append_assoc]

theorem outside_tidyFile {sort : List Opt → List Opt} (hs : ∀ l, (sort l).Perm l)
    (sortImports : List Import → List Import) {es : List Element} (h : AllOutside es) :
    AllOutside (tidyFile sort sortImports es) := by
  rw [tidyFile_sections]
  refine allOutside_iff.2 fun e he => ?_
  rcases List.mem_append.1 he with he | he
  · exact allOutside_iff.1 h e ((List.takeWhile_sublist _).subset he)
  · exact allOutside_iff.1 (outside_sections hs _ _ h) e he

theorem comments_tidyFile {sort : List Opt → List Opt} (hs : ∀ l, (sort l).Perm l)
    {imports : List Import} {es : List Element} (himp : imports.Perm (importsAmong es)) (h : AllOutside es) :
    (commentsAmong (tidyFile sort (fun _ => imports) es)).Perm (commentsAmong es) := by
  rw [tidyFile_sections, commentsAmong_append]
  conv => rhs; rw [← List.takeWhile_append_dropWhile (p := isComment) (l := es), commentsAmong_append]
  refine .append_left _ ((comments_sections hs _ himp h).trans ?_)
  have := commentsAmong_perm (options_perm (es.dropWhile isComment))
  rw [commentsAmong_append, commentsAmong_options] at this
  refine .trans (.append_right _ ?_) this.symm
  have e : optionsAmong (es.dropWhile isComment) = optionsAmong es := by
    unfold optionsAmong
    rw [among_drop _ fun _ => rfl]
  rw [e]
  exact (hs _).flatMap_right _

/-- Without `--fix` the tokens are those of the file in order. -/
theorem plain_toks {srt : SortSlice} {keep b : Bool} {q : Params} (hq : q.fix = fixNone) {es : List Element} :
    topToks keep b q es ++ elementsToks keep b
      (sections (sortOpts srt) (sortOpts srt (optionsOf q es)) (sortImps srt (importsAmong es)) es) =
    elementsToks keep b (tidyFile (sortOpts srt) (fun _ => sortImps srt (importsAmong es)) es) := by
  have ho : optionsOf q es = optionsAmong es := by unfold optionsOf; rw [if_pos hq]
  unfold topToks
  rw [if_neg fun h => h.1 hq, ho, tidyFile_sections, elementsToks_append]

end Verif.Format
