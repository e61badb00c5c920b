import Verif.Proof.Create
import Verif.Proof.FormatFix

/-!
# Lemmas about the text of created files
-/

namespace Verif.Create

open Verif Str Proto Spec Format

theorem run_sorted {α : Type} (srt : SortSlice) (f : α → Str) {l s : List α} (hp : l.Perm s)
    (hs : (s.map f).Pairwise fun a b => lt a b = true) :
    srt.run (fun a b => lt (f a) (f b)) l = s := by
  have h1 := srt.sorted (fun a b => lt (f a) (f b)) l (SWO.str.on f)
  have h2 := srt.perm (fun a b => lt (f a) (f b)) l
  rw [List.pairwise_map] at hs
  refine List.Perm.eq_of_pairwise ?_ h1 (hs.imp fun h => lt_asymm h) (h2.trans hp)
  intro a b ha hb hab hba
  have ha : a ∈ s := (h2.trans hp).mem_iff.1 ha
  have hne : ∀ l : List α, l.Pairwise (fun a b => lt (f a) (f b) = true) → a ∈ l → b ∈ l → a = b := by
    intro l hl ha hb
    induction l with
    | nil => cases ha
    | cons x l ih =>
      rw [List.pairwise_cons] at hl
      rcases List.mem_cons.1 ha with rfl | ha' <;> rcases List.mem_cons.1 hb with rfl | hb'
      · rfl
      · rw [hl.1 b hb'] at hba; cases hba
      · rw [hl.1 a ha'] at hab; cases hab
      · exact ih hl.2 ha' hb'
  exact hne s hs ha hb

theorem newOptions_sorted (uber2 : Bool) (path package javaPrefix : Str) :
    ((newOptions uber2 path package javaPrefix).map (·.name)).Pairwise fun a b => lt a b = true := by
  cases uber2
  · show [s%"go_package", s%"java_multiple_files", s%"java_outer_classname", s%"java_package"].Pairwise _
    decide +kernel
  · show [s%"csharp_namespace", s%"go_package", s%"java_multiple_files", s%"java_outer_classname",
      s%"java_package", s%"objc_class_prefix", s%"php_namespace"].Pairwise _
    decide +kernel

variable (cs : List Comment) (uber2 : Bool) (path package javaPrefix : Str)

theorem newFile_options :
    optionsAmong (newFile cs uber2 path package javaPrefix) = newOptions uber2 path package javaPrefix := by
  unfold newFile optionsAmong
  induction cs with
  | nil => simp [List.filterMap_cons, List.filterMap_map, Function.comp_def]
  | cons c cs ih => simpa [List.filterMap_cons] using ih

theorem newFile_packages :
    packagesAmong (newFile cs uber2 path package javaPrefix) = [{ name := package }] := by
  unfold newFile packagesAmong
  induction cs with
  | nil => simp [List.filterMap_cons, List.filterMap_map, Function.comp_def]
  | cons c cs ih => simpa [List.filterMap_cons] using ih

theorem newFile_syntaxes :
    syntaxesAmong (newFile cs uber2 path package javaPrefix) = [{ value := s%"proto3" }] := by
  unfold newFile syntaxesAmong
  induction cs with
  | nil => simp [List.filterMap_cons, List.filterMap_map, Function.comp_def]
  | cons c cs ih => simpa [List.filterMap_cons] using ih

theorem newFile_imports :
    importsAmong (newFile cs uber2 path package javaPrefix) = [] := by
  unfold newFile importsAmong
  induction cs with
  | nil => simp [List.filterMap_cons, List.filterMap_map, Function.comp_def]
  | cons c cs ih => simpa [List.filterMap_cons] using ih

theorem newFile_duplicates : duplicateItems (newFile cs uber2 path package javaPrefix) = [] := by
  have opts : ∀ os : List Opt, duplicateItems.go true true (os.map .option) = [] := by
    intro os
    induction os with
    | nil => rfl
    | cons o os ih => rw [List.map_cons, duplicateItems.go]; exact ih; all_goals simp
  unfold duplicateItems newFile
  induction cs with
  | nil =>
    rw [List.map_nil, List.nil_append, duplicateItems.go, duplicateItems.go, opts]
    rfl
  | cons c cs ih => rw [List.map_cons, List.cons_append, duplicateItems.go]; exact ih; all_goals simp

theorem newFile_takeWhile :
    (newFile cs uber2 path package javaPrefix).takeWhile isComment = cs.map .comment := by
  unfold newFile
  induction cs with
  | nil => rfl
  | cons c cs ih => rw [List.map_cons, List.cons_append, List.takeWhile_cons, if_pos (show isComment (.comment c) = true from rfl), ih]

theorem newFile_rest (sort : List Opt → List Opt) (isProto2 : Bool) :
    ((newFile cs uber2 path package javaPrefix).dropWhile isComment).flatMap
      (elementItems sort isProto2 .none) = [] := by
  have : (newFile cs uber2 path package javaPrefix).dropWhile isComment =
      .syntax { value := s%"proto3" } :: .package { name := package } ::
        (newOptions uber2 path package javaPrefix).map .option := by
    unfold newFile
    induction cs with
    | nil => rfl
    | cons c cs ih => rw [List.map_cons, List.cons_append, List.dropWhile_cons, if_pos (show isComment (.comment c) = true from rfl), ih]
  rw [this, List.flatMap_eq_nil_iff]
  intro e he
  simp only [List.mem_cons, List.mem_map] at he
  rcases he with rfl | rfl | ⟨o, _, rfl⟩
  · unfold elementItems; rfl
  · unfold elementItems; rfl
  · unfold elementItems; rfl

theorem newOptions_optionsOf (header : Str) (q : Params)
    (hq : q = ⟨path, if uber2 then fixV2 else fixV1, header, javaPrefix⟩ ∨ q.fix = fixNone) :
    (optionsOf q (newFile cs uber2 path package javaPrefix)).Perm
      (newOptions uber2 path package javaPrefix) := by
  unfold optionsOf
  rw [newFile_options, newFile_packages]
  rcases hq with rfl | hq
  · rw [if_neg (show ¬ (if uber2 then fixV2 else fixV1) = fixNone by cases uber2 <;> decide)]
    have h0 : (newOptions uber2 path package javaPrefix).filter (fun o => o.name ∉ managedNames) = [] := by
      rw [List.filter_eq_nil_iff]
      intro o ho
      have hmem : o.name ∈ (newOptions uber2 path package javaPrefix).map (·.name) := List.mem_map.2 ⟨o, ho, rfl⟩
      have hsub : ∀ n ∈ (newOptions uber2 path package javaPrefix).map (·.name), n ∈ managedNames := by
        cases uber2
        · show ∀ n ∈ [s%"go_package", s%"java_multiple_files", s%"java_outer_classname", s%"java_package"], _
          decide
        · show ∀ n ∈ [s%"csharp_namespace", s%"go_package", s%"java_multiple_files", s%"java_outer_classname",
            s%"java_package", s%"objc_class_prefix", s%"php_namespace"], _
          decide
      simp [hsub _ hmem]
    rw [h0, List.nil_append]
    dsimp only [List.head?]
    cases uber2
    · exact List.Perm.of_eq rfl
    · refine List.Perm.trans (l₂ := [quoted s%"go_package" (Protostrs.goPackageV2 package),
        { name := s%"java_multiple_files", constant := .plain s%"true" },
        quoted s%"java_outer_classname" (Protostrs.javaOuterClassname path),
        quoted s%"java_package" (Protostrs.javaPackagePrefixOverride package javaPrefix),
        quoted s%"csharp_namespace" (Protostrs.csharpNamespace package),
        quoted s%"objc_class_prefix" (Protostrs.objcClassPrefix package),
        quoted s%"php_namespace" (Protostrs.phpNamespace package)]) (List.Perm.of_eq rfl) ?_
      exact List.perm_middle (l₁ := [_, _, _, _])
  · rw [if_pos hq]

/-! ## The text -/

theorem lineText_semi (t : Str) : lineText 0 (t ++ s%";") = t ++ s%";\n" := by
  unfold lineText
  rw [show List.replicate (2 * 0) ' ' ++ (t ++ s%";") = t ++ s%";" from rfl, trimRightBy_eq_self]
  · simp
  · intro c hc
    simp at hc
    rw [← hc]; decide

/-- The text of an option statement. -/
def optionText (o : Opt) : Str := s%"option " ++ o.name ++ s%" = " ++ o.constant.sourceRepresentation ++ s%";\n"

theorem textOf_cons (depth : Nat) (t : Str) (items : List Item) :
    textOf (.line depth t :: items) = lineText depth t ++ textOf items := rfl

theorem optionStatement_text {o : Opt} (h : IsScalar o.constant)
    (hs : o.constant.sourceRepresentation ≠ []) (hc : o.comment = none) (hi : o.inlineComment = none) :
    textOf (optionStatement o) = optionText o ∧ problemsOf (optionStatement o) = [] := by
  unfold optionStatement optionItems
  rw [hc, hi, if_pos h, if_neg hs]
  refine ⟨?_, rfl⟩
  show lineText 0 _ ++ [] = _
  rw [lineText_semi, List.append_nil]
  unfold optionText
  simp

theorem textOf_flatMap {α : Type} (f : α → List Item) (l : List α) :
    textOf (l.flatMap f) = l.flatMap fun a => textOf (f a) := by
  unfold textOf
  rw [List.flatMap_assoc]

theorem problemsOf_flatMap_nil {α : Type} {f : α → List Item} {l : List α} (h : ∀ a ∈ l, problemsOf (f a) = []) :
    problemsOf (l.flatMap f) = [] := by
  unfold problemsOf at h ⊢
  rw [List.filterMap_flatMap, List.flatMap_eq_nil_iff]
  exact h

theorem problemsOf_append (a b : List Item) : problemsOf (a ++ b) = problemsOf a ++ problemsOf b := by
  unfold problemsOf; rw [List.filterMap_append]

theorem newOptions_plain {o : Opt} (h : o ∈ newOptions uber2 path package javaPrefix) :
    textOf (optionStatement o) = optionText o ∧ problemsOf (optionStatement o) = [] := by
  have : (o.constant.array = [] ∧ o.constant.orderedMap = []) ∧ o.constant.sourceRepresentation ≠ [] ∧
      o.comment = none ∧ o.inlineComment = none := by
    cases uber2
    all_goals
      simp only [newOptions, if_true, Bool.false_eq_true, if_false, List.mem_cons, List.not_mem_nil, or_false] at h
    · rcases h with rfl | rfl | rfl | rfl <;> exact ⟨⟨rfl, rfl⟩, by simp [quoted, Literal.str, Literal.plain, Literal.sourceRepresentation], rfl, rfl⟩
    · rcases h with rfl | rfl | rfl | rfl | rfl | rfl | rfl <;> exact ⟨⟨rfl, rfl⟩, by simp [quoted, Literal.str, Literal.plain, Literal.sourceRepresentation], rfl, rfl⟩
  exact optionStatement_text this.1 this.2.1 this.2.2.1 this.2.2.2

/-- The text of a new file below the header, without the newline at the end. -/
def bodyText : Str :=
  s%"syntax = \"proto3\";\n\npackage " ++ package ++ s%";\n\n" ++
    ((newOptions uber2 path package javaPrefix).flatMap optionText).dropLast

theorem newOptions_ne : newOptions uber2 path package javaPrefix ≠ [] := by
  cases uber2 <;> simp [newOptions]

/-- The text of the options ends with a line. -/
theorem options_last : ∃ t, (newOptions uber2 path package javaPrefix).flatMap optionText = t ++ s%";\n" := by
  have h : ∀ l : List Opt, l ≠ [] → ∃ t, l.flatMap optionText = t ++ s%";\n" := by
    intro l hl
    rcases List.eq_nil_or_concat l with rfl | ⟨l, o, rfl⟩
    · exact absurd rfl hl
    · rw [List.concat_eq_append, List.flatMap_append]
      refine ⟨l.flatMap optionText ++ (s%"option " ++ o.name ++ s%" = " ++ o.constant.sourceRepresentation), ?_⟩
      simp [optionText]
  exact h _ (newOptions_ne uber2 path package javaPrefix)

theorem body_last : ∃ t, bodyText uber2 path package javaPrefix = t ++ s%";" := by
  obtain ⟨t, ht⟩ := options_last uber2 path package javaPrefix
  unfold bodyText
  rw [ht]
  refine ⟨s%"syntax = \"proto3\";\n\npackage " ++ package ++ s%";\n\n" ++ t, ?_⟩
  have : (t ++ s%";\n").dropLast = t ++ s%";" := by
    rw [show t ++ s%";\n" = (t ++ s%";") ++ ['\n'] by simp, List.dropLast_concat]
  rw [this]
  simp only [List.append_assoc]

/-- The text of the file, with what is at the top. -/
theorem items_text (sort : List Opt → List Opt) (b : Bool) (top : List Item) :
    textOf (fileItems sort b top (newOptions uber2 path package javaPrefix) []
        (newFile cs uber2 path package javaPrefix)) =
      textOf top ++ bodyText uber2 path package javaPrefix ++ s%"\n\n" ∧
    problemsOf (fileItems sort b top (newOptions uber2 path package javaPrefix) []
        (newFile cs uber2 path package javaPrefix)) = problemsOf top := by
  unfold fileItems
  rw [newFile_duplicates, newFile_syntaxes, newFile_packages, newFile_rest]
  unfold fileOptionItems
  rw [if_neg (newOptions_ne uber2 path package javaPrefix)]
  constructor
  · simp only [textOf_append, textOf_flatMap]
    have h1 : textOf (syntaxItems ([({ value := s%"proto3" } : Syntax)].head?)) = s%"syntax = \"proto3\";\n\n" := by
      decide +kernel
    have h2 : textOf (packageItems ([({ name := package } : Package)].head?)) = s%"package " ++ package ++ s%";\n\n" := by
      show lineText 0 (s%"package " ++ package ++ s%";") ++ (lineText 0 [] ++ []) = _
      rw [lineText_semi]
      show s%"package " ++ package ++ s%";\n" ++ s%"\n" = _
      simp
    have h3 : (newOptions uber2 path package javaPrefix).flatMap (fun a => textOf (optionStatement a)) =
        (newOptions uber2 path package javaPrefix).flatMap optionText := by
      rw [List.flatMap_def, List.flatMap_def]
      congr 1
      exact List.map_congr_left fun o ho => (newOptions_plain uber2 path package javaPrefix ho).1
    rw [h1, h2, h3]
    obtain ⟨t, ht⟩ := options_last uber2 path package javaPrefix
    unfold bodyText
    rw [ht]
    have : (t ++ s%";\n").dropLast = t ++ s%";" := by
      rw [show t ++ s%";\n" = (t ++ s%";") ++ ['\n'] by simp, List.dropLast_concat]
    rw [this]
    have h4 : textOf (fileImportItems []) = [] := rfl
    have h5 : textOf [blank] = s%"\n" := by decide +kernel
    have h6 : textOf [] = [] := rfl
    rw [h4, h5, h6]
    simp
  · simp only [problemsOf_append]
    rw [problemsOf_flatMap_nil fun o ho => (newOptions_plain uber2 path package javaPrefix ho).2]
    simp [syntaxItems, packageItems, fileImportItems, problemsOf, noted, note, List.head?]

theorem trimSpace_middle {t u : Str} (h : Trimmed t) (hn : t ≠ []) (hu : ∀ c ∈ u, isSpace c = true) :
    trimSpace (t ++ u) = t := by
  unfold trimSpace trimLeftBy trimRightBy
  have h1 : (t ++ u).dropWhile isSpace = t ++ u := by
    refine dropWhile_eq_self ?_
    intro c hc
    cases t with
    | nil => exact absurd rfl hn
    | cons x t => exact h.1 c hc
  rw [h1, List.reverse_append, List.dropWhile_append_of_pos (by simpa using hu)]
  rw [dropWhile_eq_self, List.reverse_reverse]
  intro c hc
  rw [List.head?_reverse] at hc
  exact h.2 c hc

theorem newFile_transform (srt : SortSlice) (q : Params) (header top : Str)
    (hq : q = ⟨path, if uber2 then fixV2 else fixV1, header, javaPrefix⟩ ∨ q.fix = fixNone)
    (htop : textOf (topItems q (newFile cs uber2 path package javaPrefix)) = top)
    (hprob : problemsOf (topItems q (newFile cs uber2 path package javaPrefix)) = [])
    (hhead : ∀ c, top.head? = some c → isSpace c = false) :
    transform srt q (newFile cs uber2 path package javaPrefix) =
      .ok (top ++ bodyText uber2 path package javaPrefix ++ s%"\n", []) := by
  have hk : KnownFix q := by
    rcases hq with rfl | hq
    · cases uber2
      · exact .inr (.inl rfl)
      · exact .inr (.inr rfl)
    · exact .inl hq
  have hp2 : proto2Of (newFile cs uber2 path package javaPrefix) = some false := by
    unfold proto2Of
    rw [newFile_syntaxes]
    decide
  rcases transform_eq srt q hk (newFile cs uber2 path package javaPrefix) with ⟨s, hs, _⟩ | ⟨b, hb, he⟩
  · rw [hp2] at hs; cases hs
  · rw [he]
    unfold layout
    rw [newFile_imports, (show sortImps srt [] = [] from List.perm_nil.1 (srt.perm _ []))]
    have hso : sortOpts srt (optionsOf q (newFile cs uber2 path package javaPrefix)) =
        newOptions uber2 path package javaPrefix := by
      unfold sortOpts
      exact run_sorted srt (·.name) (newOptions_optionsOf cs uber2 path package javaPrefix header q hq)
        (newOptions_sorted uber2 path package javaPrefix)
    rw [hso]
    obtain ⟨h1, h2⟩ := items_text cs uber2 path package javaPrefix (sortOpts srt) b
      (topItems q (newFile cs uber2 path package javaPrefix))
    unfold finish
    rw [h1, h2, hprob, htop]
    obtain ⟨t, ht⟩ := body_last uber2 path package javaPrefix
    have htrim : Trimmed (top ++ bodyText uber2 path package javaPrefix) := by
      constructor
      · intro c hc
        cases top with
        | nil =>
          unfold bodyText at hc
          cases hc; decide
        | cons x top => exact hhead c hc
      · intro c hc
        rw [ht, ← List.append_assoc] at hc
        simp at hc
        rw [← hc]; decide
    have hne : top ++ bodyText uber2 path package javaPrefix ≠ [] := by
      rw [ht]; simp
    rw [trimSpace_middle htrim hne (by decide), if_neg hne]
    rfl

theorem join_lines {α : Type} (f : α → Str) (a : α) (l : List α) :
    join s%"\n" ((a :: l).map f) = ((a :: l).flatMap fun x => f x ++ s%"\n").dropLast := by
  induction l generalizing a with
  | nil => simp [join]
  | cons b l ih =>
    rw [List.map_cons, List.map_cons, join, ← List.map_cons, ih b]
    · rw [List.flatMap_cons (x := a), List.dropLast_append_of_ne_nil (by simp)]
    · simp

theorem newText_eq (header : Str) :
    newText header uber2 path package javaPrefix =
      (if header = [] then [] else header ++ s%"\n\n") ++ bodyText uber2 path package javaPrefix := by
  unfold newText bodyText
  congr 1
  obtain ⟨o, os, ho⟩ := List.exists_cons_of_ne_nil (newOptions_ne uber2 path package javaPrefix)
  rw [ho]
  have := join_lines (fun o : Opt =>
    s%"option " ++ o.name ++ s%" = " ++ o.constant.sourceRepresentation ++ s%";") o os
  have h2 : ((o :: os).flatMap fun x => (s%"option " ++ x.name ++ s%" = " ++ x.constant.sourceRepresentation ++ s%";") ++ s%"\n") =
      (o :: os).flatMap optionText := by
    congr 1
    funext x
    simp [optionText]
  rw [h2] at this
  rw [← this]
  simp [join]

/-- An option line. -/
theorem line_str (name value : Str) : s%"option " ++ (quoted name value).name ++ s%" = " ++
    (quoted name value).constant.sourceRepresentation ++ s%";" =
    s%"option " ++ (name ++ (s%" = \"" ++ (value ++ s%"\";"))) := by
  simp [quoted, Literal.str, Literal.sourceRepresentation]

theorem join_cons_cons (sep x y : Str) (l : List Str) :
    join sep (x :: y :: l) = x ++ (sep ++ join sep (y :: l)) := by
  simp [join]

theorem join_one (sep x : Str) : join sep [x] = x := by simp [join]

theorem data_v1 (h p a b c : Str) :
    getDataV1 { header := h, pkg := p, goPkg := a, javaOuterClassname := b, javaPkg := c } =
      h ++ join s%"\n" [s%"syntax = \"proto3\";", [], s%"package " ++ p ++ s%";", [],
        s%"option " ++ (s%"go_package" ++ (s%" = \"" ++ (a ++ s%"\";"))),
        s%"option java_multiple_files = true;",
        s%"option " ++ (s%"java_outer_classname" ++ (s%" = \"" ++ (b ++ s%"\";"))),
        s%"option " ++ (s%"java_package" ++ (s%" = \"" ++ (c ++ s%"\";")))] := by
  unfold getDataV1
  simp only [join_cons_cons, join_one, List.append_assoc]
  rfl

set_option maxRecDepth 4000 in
theorem data_v2 (h p a b c d e f : Str) :
    getDataV2 { header := h, pkg := p, csharpNamespace := d, goPkg := a, javaOuterClassname := b, javaPkg := c,
                objcClassPrefix := e, phpNamespace := f } =
      h ++ join s%"\n" [s%"syntax = \"proto3\";", [], s%"package " ++ p ++ s%";", [],
        s%"option " ++ (s%"csharp_namespace" ++ (s%" = \"" ++ (d ++ s%"\";"))),
        s%"option " ++ (s%"go_package" ++ (s%" = \"" ++ (a ++ s%"\";"))),
        s%"option java_multiple_files = true;",
        s%"option " ++ (s%"java_outer_classname" ++ (s%" = \"" ++ (b ++ s%"\";"))),
        s%"option " ++ (s%"java_package" ++ (s%" = \"" ++ (c ++ s%"\";"))),
        s%"option " ++ (s%"objc_class_prefix" ++ (s%" = \"" ++ (e ++ s%"\";"))),
        s%"option " ++ (s%"php_namespace" ++ (s%" = \"" ++ (f ++ s%"\";")))] := by
  unfold getDataV2
  simp only [join_cons_cons, join_one, List.append_assoc]
  rfl

theorem content_eq {c : Settings.Config} (hc : c.dirPath ≠ []) (p pkg : Str) :
    content c p pkg = newText c.lint.fileHeader (decide (toLower c.lint.group = s%"uber2")) p pkg
      c.lint.javaPackagePrefix := by
  have hv : isV2 c = decide (toLower c.lint.group = s%"uber2") := by
    unfold isV2; rw [if_neg hc]
  have hh : (if c.lint.fileHeader ≠ [] then c.lint.fileHeader ++ s%"\n\n" else c.lint.fileHeader) =
      if c.lint.fileHeader = [] then [] else c.lint.fileHeader ++ s%"\n\n" := by
    by_cases h : c.lint.fileHeader = [] <;> simp [h]
  unfold content
  dsimp only
  unfold getFileHeader getJavaPackagePrefix
  rw [if_neg hc, if_neg hc, hv, hh, data_v1, data_v2]
  unfold newText newOptions
  cases decide (toLower c.lint.group = s%"uber2")
  · rw [if_neg Bool.false_ne_true, if_neg Bool.false_ne_true]
    simp only [List.map_cons, List.map_nil, line_str]
    rfl
  · rw [if_pos rfl, if_pos rfl]
    simp only [List.map_cons, List.map_nil, line_str]
    rfl

end Verif.Create
