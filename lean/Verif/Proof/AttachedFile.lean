import Verif.Proof.AttachedElement

/-! # A formatted file is read with its comments -/

namespace Verif.Format

open Verif Str Proto Spec

/-- The lines are read as these declarations. -/
def Shows (around : Around) (items : List Item) (es : List Element) : Prop :=
  ∃ rows, Rows true items rows ∧ Reads around rows es

theorem shows_nil {around : Around} : Shows around [] [] := ⟨[], .nil, reads_nil around⟩

theorem shows_blank {around : Around} : Shows around [blank] [] := ⟨[[]], row_blank, reads_blank around⟩

theorem Shows.append {around : Around} {a b : List Item} {es fs : List Element} (h : Shows around a es)
    (k : Shows around b fs) : Shows around (a ++ b) (es ++ fs) := by
  obtain ⟨r, h1, h2⟩ := h
  obtain ⟨s, k1, k2⟩ := k
  exact ⟨r ++ s, h1.append k1, h2.append k2⟩

theorem Shows.blank {around : Around} {a : List Item} {es : List Element} (h : Shows around a es) :
    Shows around (a ++ [blank]) es := by
  simpa using h.append shows_blank

theorem shows_comment {around : Around} {c : Comment} (h : CommentFits (some c)) :
    Shows around (note (some c) ++ [blank]) (shownAll [.comment c]) :=
  ⟨_, (rows_note h).append row_blank, reads_comment c⟩

/-- A statement on one line. -/
theorem shows_line {around : Around} {c i : Option Comment} (hc : CommentFits c) (hi : CommentFits i)
    (hs : ShortComment i) {last : Str} {w : Str} {ts : List Token} (hg : Gives true last (.word w :: ts)) {e : Element}
    (hopen : ∀ rest, (if mayOpen around (.word w :: ts ++ rest) then braceAt (.word w :: ts ++ rest) else none) = none)
    (hread : ∀ rest n, (Token.word w :: ts).length ≤ n → readElement around n (.word w :: ts ++ rest) = some (e, rest))
    (he : takesInline e = true) :
    Shows around (note c ++ noted last i) [withComments (plainComment c) (plainComment i) e] := by
  have := reads_statement (around := around) (c := c) (i := i) (init := []) (last := .word w :: ts) hs
    (w := w) (ts := ts) (by simp) (by simp) (fun _ _ e => nomatch e) hopen hread he
  exact ⟨_, (rows_note hc).append (row_noted hg hi hs), this⟩

theorem shows_option {isProto2 : Bool} {around : Around} {o : Opt} (h : OptionFits o)
    (hs : ShortComment o.inlineComment) (hn : problemsOf (optionStatement o) = []) :
    Shows around (optionStatement o) (shownAll [.option o]) := by
  obtain ⟨init, last, h1, h2⟩ := option_core h hn
  have hinit : problemsOf init = [] := by
    have := h2 o.comment o.inlineComment
    rw [this] at hn
    exact (problems_append (problems_append hn).2).1
  have hL : ∀ i, CommentFits i → Lines true (optionStatement { o with comment := none, inlineComment := i })
      (.word s%"option" :: (elementToks false isProto2 (.option o)).drop 1 ++ noteToks true i) := by
    intro i hi
    have := lines_optionStatement (keep := true) (o := { o with comment := none, inlineComment := i })
      ⟨fun _ h => (List.not_mem_nil h).elim, hi, h.name, h.value⟩ (by
        rw [h2, problemsOf_append, problemsOf_append, hinit, problems_noted]; rfl)
    unfold optionToks at this
    unfold elementToks optionToks
    rw [wrap_eq] at this
    rw [wrap_false]
    exact this
  have he : Token.word s%"option" :: (elementToks false isProto2 (.option o)).drop 1 =
      elementToks false isProto2 (.option o) := by
    unfold elementToks optionToks
    rw [wrap_false]
    rfl
  have := rows_leaf (around := around) (f := fun c i => optionStatement { o with comment := c, inlineComment := i }) h2
    h1 h.comment h.inlineComment hs hL (e := .option (bareOption o))
    (fun rest => by
      rw [List.cons_append, mayOpen_word (by decide)]; rfl)
    (fun rest n hlen => by
      rw [he] at hlen ⊢
      have := readElement_toks isProto2 around (.option o) n rest rfl (by unfold ElementFits; exact h) hlen
      unfold bare at this
      exact this)
    rfl
  simpa [Shows, shownAll, shownAll.silent, shown, keptOption, withComments, bareOption] using this

theorem shows_options {isProto2 : Bool} {around : Around} : ∀ {os : List Opt}, (∀ o ∈ os, OptionFits o) →
    (∀ o ∈ os, ShortComment o.inlineComment) → problemsOf (os.flatMap optionStatement) = [] →
    Shows around (os.flatMap optionStatement) (shownAll (os.map .option))
  | [], _, _, _ => by simpa [shownAll] using shows_nil
  | o :: os, h, hs, hn => by
    rw [List.flatMap_cons] at hn ⊢
    obtain ⟨n1, n2⟩ := problems_append hn
    rw [List.map_cons, shownAll_cons]
    exact (shows_option (isProto2 := isProto2) (h o (List.mem_cons_self ..)) (hs o (List.mem_cons_self ..)) n1).append
      (shows_options (isProto2 := isProto2) (fun o ho => h o (List.mem_cons_of_mem _ ho))
        (fun o ho => hs o (List.mem_cons_of_mem _ ho)) n2)

theorem gives_syntax {v : Str} (hv : insideQuotes '"' v = true) : Gives true (s%"syntax = \"" ++ v ++ s%"\";")
    (.word s%"syntax" :: [.sym '=', .str '"' v, .sym ';']) := by
  have := ((closed_of_run (keep := true) (a := s%"syntax = ") (ts := [.word s%"syntax", .sym '=']) rfl).append
    ((closed_str (.inl rfl) hv).append (closed_of_run (keep := true) (a := s%";") (ts := [.sym ';']) rfl))).gives
  simpa using this

theorem gives_import {i : Import} (hv : insideQuotes '"' i.filename = true)
    (hk : i.kind ∈ [[], s%"public", s%"weak"]) :
    Gives true (s%"import " ++ (if i.kind = [] then [] else i.kind ++ s%" ") ++ s%"\"" ++ i.filename ++ s%"\";")
      (.word s%"import" :: ((if i.kind = [] then [] else [.word i.kind]) ++ [.str '"' i.filename, .sym ';'])) := by
  have h0 : Closed true (s%"import " ++ (if i.kind = [] then [] else i.kind ++ s%" "))
      (.word s%"import" :: (if i.kind = [] then [] else [.word i.kind])) := by
    simp only [List.mem_cons, List.not_mem_nil, or_false] at hk
    obtain ⟨p, c, f, kind, i⟩ := i
    dsimp only at hk ⊢
    rcases hk with rfl | rfl | rfl <;> exact closed_of_run rfl
  have h1 := (h0.append ((closed_str (.inl rfl) hv).append (closed_of_run (keep := true) (a := s%";") (ts := [.sym ';']) rfl))).gives
  simpa using h1

theorem shows_syntax {isProto2 : Bool} {s : Syntax} (h : ElementFits isProto2 .none (.syntax s))
    (hs : ShortComment s.inlineComment) :
    Shows .none (syntaxItems (some s)) (shownAll (setOff [.syntax s])) := by
  have hf := h
  unfold ElementFits at h
  obtain ⟨_, hc, hi, hv⟩ := h
  have he : elementToks false isProto2 (.syntax s) = .word s%"syntax" :: [.sym '=', .str '"' s.value, .sym ';'] := by
    unfold elementToks
    rw [wrap_false]
  have := shows_line (around := .none) (c := none) (fun _ h => (List.not_mem_nil h).elim) hi hs (gives_syntax hv)
    (e := bare (.syntax s))
    (fun rest => by rw [List.cons_append, mayOpen_word (by decide)]; rfl)
    (fun rest n hlen => by
      rw [← he] at hlen ⊢
      exact readElement_toks isProto2 .none (.syntax s) n rest rfl hf hlen)
    (by simp [bare, takesInline])
  have this := this.blank
  unfold syntaxItems
  cases hcc : s.comment with
  | none => simpa [setOff, hcc, shownAll, shownAll.silent, shown, bare, withComments, note] using this
  | some c =>
    rw [hcc] at hc
    have := (shows_comment (around := .none) hc).append this
    simpa [setOff, hcc, shownAll, shownAll.silent, shown, bare, withComments, note, plainComment] using this

theorem shows_package {isProto2 : Bool} {p : Package} (h : ElementFits isProto2 .none (.package p))
    (hs : ShortComment p.inlineComment) :
    Shows .none (packageItems (some p)) (shownAll [.package p]) := by
  have hf := h
  unfold ElementFits at h
  obtain ⟨_, hc, hi, hv⟩ := h
  have he : elementToks false isProto2 (.package p) = .word s%"package" :: [.word p.name, .sym ';'] := by
    unfold elementToks
    rw [wrap_false]
  have := shows_line (around := .none) hc hi hs
    (((closed_of_run (keep := true) (a := s%"package ") (ts := [.word s%"package"]) rfl).before (gives_word hv)).ends
      (ends_of_run (keep := true) (c := ';') (b := []) (ts := [.sym ';']) (by decide) rfl))
    (e := bare (.package p))
    (fun rest => by rw [List.cons_append, mayOpen_word (by decide)]; rfl)
    (fun rest n hlen => by
      have := readElement_toks isProto2 .none (.package p) n rest rfl hf (by rw [he]; exact hlen)
      rw [he] at this
      exact this)
    (by simp [bare, takesInline])
  have this := this.blank
  unfold packageItems
  simpa [shownAll, shownAll.silent, shown, bare, withComments] using this

theorem shows_import {isProto2 : Bool} {i : Import} (h : ElementFits isProto2 .none (.import i))
    (hs : ShortComment i.inlineComment) :
    Shows .none (importItems i) (shownAll [.import i]) := by
  have hf := h
  unfold ElementFits at h
  obtain ⟨_, hc, hi, hv, hk⟩ := h
  have he : elementToks false isProto2 (.import i) =
      .word s%"import" :: ((if i.kind = [] then [] else [.word i.kind]) ++ [.str '"' i.filename, .sym ';']) := by
    unfold elementToks
    rw [wrap_false]
    rfl
  have := shows_line (around := .none) hc hi hs (gives_import hv hk)
    (e := bare (.import i))
    (fun rest => by rw [List.cons_append, mayOpen_word (by decide)]; rfl)
    (fun rest n hlen => by
      rw [← he] at hlen ⊢
      exact readElement_toks isProto2 .none (.import i) n rest rfl hf hlen)
    (by simp [bare, takesInline])
  unfold importItems
  simpa [shownAll, shownAll.silent, shown, bare, withComments] using this

theorem shows_imports {isProto2 : Bool} : ∀ {is : List Import}, (∀ i ∈ is, ElementFits isProto2 .none (.import i)) →
    (∀ i ∈ is, ShortComment i.inlineComment) →
    Shows .none (is.flatMap importItems) (shownAll (is.map .import))
  | [], _, _ => by simpa [shownAll] using shows_nil
  | i :: is, h, hs => by
    rw [List.flatMap_cons, List.map_cons, shownAll_cons]
    exact (shows_import (h i (List.mem_cons_self ..)) (hs i (List.mem_cons_self ..))).append
      (shows_imports (fun o ho => h o (List.mem_cons_of_mem _ ho)) (fun o ho => hs o (List.mem_cons_of_mem _ ho)))

theorem shows_rest {sort : List Opt → List Opt} (hsort : ∀ l, (sort l).Perm l) {isProto2 : Bool} :
    ∀ {es : List Element}, ElementsFit isProto2 .none es → AllOutside es → ShortAll es →
    problemsOf (es.flatMap (elementItems sort isProto2 .none)) = [] →
    Shows .none (es.flatMap (elementItems sort isProto2 .none)) (shownAll (tidyAll sort (es.filter staysPut)))
  | [], _, _, _, _ => by
    rw [List.filter_nil, tidyAll_nil]
    simpa [shownAll] using shows_nil
  | e :: es, h, ho, hsh, hn => by
    unfold ElementsFit at h
    unfold AllOutside at ho
    unfold ShortAll at hsh
    rw [List.flatMap_cons] at hn ⊢
    obtain ⟨h1, h2⟩ := problems_append hn
    have ih := shows_rest hsort h.2 ho.2 hsh.2 h2
    cases hs : staysPut e with
    | true =>
      rw [List.filter_cons_of_pos hs]
      unfold tidyAll
      rw [shownAll_cons]
      exact Shows.append (rows_element hsort isProto2 .none e (.inl hs) h.1 ho.1 hsh.1 h1) ih
    | false =>
      rw [List.filter_cons_of_neg (by simp [hs])]
      have : elementItems sort isProto2 .none e = [] := by
        cases e <;> first | cases hs | skip
        all_goals (unfold elementItems; rfl)
      rw [this]
      exact ih

theorem shows_top {sort : List Opt → List Opt} {isProto2 isProto2' : Bool} : ∀ {es : List Element},
    ElementsFit isProto2 .none es → (∀ e ∈ es, isComment e = true) →
    Shows .none (es.flatMap (elementItems sort isProto2' .none)) (shownAll es)
  | [], _, _ => by simpa [shownAll] using shows_nil
  | e :: es, h, hc => by
    unfold ElementsFit at h
    have he := hc e (List.mem_cons_self ..)
    have ih := shows_top (sort := sort) (isProto2' := isProto2') h.2 fun d hd => hc d (List.mem_cons_of_mem _ hd)
    cases e <;> first | cases he | skip
    rw [List.flatMap_cons, shownAll_cons]
    have h1 := h.1
    unfold ElementFits at h1
    conv => arg 2; arg 1; unfold elementItems
    exact (shows_comment h1).append ih

theorem setOff_append (a b : List Element) : setOff (a ++ b) = setOff a ++ setOff b := by
  induction a with
  | nil => rfl
  | cons e a ih =>
    rw [List.cons_append]
    cases e <;> simp [setOff, ih]

theorem setOff_none {es : List Element} (h : syntaxesAmong es = []) : setOff es = es := by
  induction es with
  | nil => rfl
  | cons e es ih =>
    cases e <;> first | cases h | skip
    all_goals (simp only [setOff]; rw [ih h])

theorem syntaxes_tidyAll {sort : List Opt → List Opt} {es : List Element} (h : ∀ e ∈ es, staysPut e = true) :
    syntaxesAmong (tidyAll sort es) = [] := by
  induction es with
  | nil => rw [tidyAll_nil]; rfl
  | cons e es ih =>
    have h1 := h e (List.mem_cons_self ..)
    have ih := ih fun d hd => h d (List.mem_cons_of_mem _ hd)
    unfold tidyAll
    cases e <;> first | cases h1 | skip
    all_goals (unfold tidy; exact ih)

/-- The file with the sections of the formatter. -/
theorem shows_file {sort : List Opt → List Opt} (hsort : ∀ l, (sort l).Perm l) {imports : List Import}
    {es : List Element} (himp : imports.Perm (importsAmong es)) {isProto2 : Bool} {top : List Item}
    {fs : List Element} (ht : Shows .none top fs) {os : List Opt} (ho : ∀ o ∈ os, OptionFits o)
    (hos : ∀ o ∈ os, ShortComment o.inlineComment)
    (h : ElementsFit isProto2 .none es) (hk : AllOutside es) (hsh : ShortAll es)
    (hn : problemsOf (fileItems sort isProto2 top os imports es) = []) :
    Shows .none (fileItems sort isProto2 top os imports es)
      (fs ++ shownAll (setOff (sections sort os imports es))) := by
  have hm := elementsFit_iff.1 h
  have hsm := shortAll_iff.1 hsh
  unfold fileItems at hn ⊢
  unfold sections
  obtain ⟨hn, n7⟩ := problems_append hn
  obtain ⟨hn, n6⟩ := problems_append hn
  obtain ⟨hn, n5⟩ := problems_append hn
  obtain ⟨hn, n4⟩ := problems_append hn
  obtain ⟨hn, n3⟩ := problems_append hn
  obtain ⟨n1, n2⟩ := problems_append hn
  obtain ⟨d1, d2, d3⟩ := no_duplicates n1
  have dup : duplicateItems es = [] := d1
  rw [dup, List.nil_append]
  have m2 : setOff ((packagesAmong es).map Element.package) = (packagesAmong es).map .package :=
    setOff_none (List.filterMap_eq_nil_iff.2 fun e he => by obtain ⟨_, _, rfl⟩ := List.mem_map.1 he; rfl)
  have m3 : setOff (os.map Element.option) = os.map .option :=
    setOff_none (List.filterMap_eq_nil_iff.2 fun e he => by obtain ⟨_, _, rfl⟩ := List.mem_map.1 he; rfl)
  have m4 : setOff (imports.map Element.import) = imports.map .import :=
    setOff_none (List.filterMap_eq_nil_iff.2 fun e he => by obtain ⟨_, _, rfl⟩ := List.mem_map.1 he; rfl)
  have m5 : setOff (tidyAll sort ((es.dropWhile isComment).filter staysPut)) =
      tidyAll sort ((es.dropWhile isComment).filter staysPut) :=
    setOff_none (syntaxes_tidyAll fun e he => (List.mem_filter.1 he).2)
  simp only [setOff_append, shownAll_append, m2, m3, m4, m5]
  simp only [← List.append_assoc]
  refine (((Shows.append ?_ ?_).append ?_).append ?_).append ?_
  · refine ht.append ?_
    match hs : syntaxesAmong es, (by simpa using d2 : (syntaxesAmong es).length ≤ 1) with
    | [], _ => simpa [setOff, shownAll, syntaxItems] using shows_nil
    | [s], _ =>
      have : s ∈ syntaxesAmong es := by rw [hs]; exact List.mem_cons_self ..
      refine shows_syntax (hm _ (mem_syntaxes this)) ?_
      have := hsm _ (mem_syntaxes this)
      unfold ShortIn at this
      exact this
  · match hs : packagesAmong es, (by simpa using d3 : (packagesAmong es).length ≤ 1) with
    | [], _ => simpa [shownAll, packageItems] using shows_nil
    | [s], _ =>
      have : s ∈ packagesAmong es := by rw [hs]; exact List.mem_cons_self ..
      refine shows_package (hm _ (mem_packages this)) ?_
      have := hsm _ (mem_packages this)
      unfold ShortIn at this
      exact this
  · unfold fileOptionItems at n5 ⊢
    by_cases hoe : os = []
    · rw [if_pos hoe, hoe]
      simpa [shownAll] using shows_nil
    · rw [if_neg hoe] at n5 ⊢
      exact (shows_options (isProto2 := isProto2) ho hos (problems_append n5).1).blank
  · unfold fileImportItems
    by_cases hoe : imports = []
    · rw [if_pos hoe, hoe]
      simpa [shownAll] using shows_nil
    · rw [if_neg hoe]
      refine (shows_imports (isProto2 := isProto2) (fun i hi => hm _ (mem_imports (himp.mem_iff.1 hi))) fun i hi => ?_).blank
      have := hsm _ (mem_imports (himp.mem_iff.1 hi))
      unfold ShortIn at this
      exact this
  · exact shows_rest hsort (elementsFit_iff.2 fun e he => hm e ((List.dropWhile_sublist _).subset he))
      (allOutside_iff.2 fun e he => allOutside_iff.1 hk e ((List.dropWhile_sublist _).subset he))
      (shortAll_iff.2 fun e he => hsm e ((List.dropWhile_sublist _).subset he)) n7

/-- The text of the lines is read. -/
theorem Shows.read {items : List Item} {es : List Element} (h : Shows .none items es) (hf : Flat items)
    (hp : problemsOf items = []) : readWithComments (finish items) = some es := by
  obtain ⟨rows, h1, h2⟩ := h
  obtain ⟨line, e⟩ := placed_finish h1 hf hp
  unfold readWithComments
  rw [e]
  dsimp only [Option.bind_some]
  obtain ⟨m, hm, e⟩ := h2 line [] ((place line rows).length + 1) (fun _ _ _ e => nomatch e) (by simp)
  rw [List.append_nil] at e
  rw [e]
  obtain ⟨m, rfl⟩ : ∃ k, m = k + 1 := ⟨m - 1, by simp at hm; omega⟩
  simp [readCommented]

theorem setOff_comments {es : List Element} (h : ∀ e ∈ es, isComment e = true) : setOff es = es :=
  setOff_none (List.filterMap_eq_nil_iff.2 fun e he => by
    have := h e he
    cases e <;> first | rfl | cases this)

/-- The text of a formatted file is read with its comments. -/
theorem shows_transform {srt : SortSlice} {q : Params} (hq : q.fix = fixNone) {es : List Element}
    (hf : FileFits es) (hone : OneLine es) (ho : AllOutside es) (hs : ShortAll es)
    {text : Str} (h : transform srt q es = .ok (text, [])) :
    readWithComments text = some (shownAll (setOff
      (tidyFile (sortOpts srt) (fun _ => sortImps srt (importsAmong es)) es))) := by
  rcases transform_eq srt q (.inl hq) es with ⟨s, _, _, he⟩ | ⟨b, hb, he⟩
  · rw [he] at h; cases h
  · rw [he] at h
    obtain ⟨h1, h2⟩ := Prod.mk.inj (Except.ok.inj h)
    have hn : problemsOf (layout srt q b es) = [] := by
      have := (sortBy_perm (le := fun a b => !Text.lessFailure b a) (problemsOf (layout srt q b es))).length_eq
      unfold Text.sortFailures at h2
      rw [h2] at this
      exact List.length_eq_zero_iff.1 this.symm
    have hsort : ∀ l, (sortOpts srt l).Perm l := fun l => srt.perm _ l
    have hfit := hf b hb
    have hoe : optionsOf q es = optionsAmong es := by unfold optionsOf; rw [if_pos hq]
    have htop : topItems q es = (es.takeWhile isComment).flatMap (elementItems id true .none) := by
      unfold topItems; rw [if_neg fun h => h.1 hq]
    have hflat : Flat (layout srt q b es) := by
      unfold layout
      rw [hoe, htop]
      refine fileItems_top _ _ _ _ _ _ Flat (fun _ _ => flat_append) (flat_lead hone) (flat_file
        (fun l o ho => (hsort l).mem_iff.1 ho) b hone ?_ fun i hi => (srt.perm _ _).mem_iff.1 hi)
      intro o ho
      have := nodesAll_mem (oneLine_nodes hone) _ (option_mem ((hsort _).mem_iff.1 ho))
      unfold nodes at this
      exact (nodesNL_cons.1 this).1
    rw [← h1]
    refine Shows.read ?_ hflat hn
    unfold layout at hn ⊢
    rw [tidyFile_sections, setOff_append, shownAll_append, setOff_comments fun e he => mem_takeWhile he]
    rw [hoe] at hn ⊢
    refine shows_file hsort (srt.perm _ _) ?_ ?_ ?_ hfit ho hs hn
    · rw [htop]
      exact shows_top (isProto2 := b) (elementsFit_iff.2 fun e he =>
        elementsFit_iff.1 hfit e ((List.takeWhile_sublist _).subset he)) fun e he => mem_takeWhile he
    · intro o hm
      have := elementsFit_iff.1 hfit _ (mem_options ((hsort _).mem_iff.1 hm))
      unfold ElementFits at this
      exact this
    · exact fun o hm => short_option hs (mem_options ((hsort _).mem_iff.1 hm))

/-! ## The file with the managed options replaced -/

theorem mem_fixed {q : Params} {es : List Element} {e : Element} (h : e ∈ fixedFile q es) :
    e ∈ es ∨ ∃ o ∈ optionsOf q es, e = .option o := by
  unfold fixedFile at h
  rcases List.mem_append.1 h with h | h
  · rcases List.mem_append.1 h with h | h
    · exact .inl ((List.takeWhile_sublist _).subset h)
    · obtain ⟨o, ho, rfl⟩ := List.mem_map.1 h
      exact .inr ⟨o, ho, rfl⟩
  · exact .inl ((List.dropWhile_sublist _).subset (List.mem_filter.1 h).1)

theorem oneLine_iff {es : List Element} : OneLine es ↔ ∀ e ∈ es, NodesNL (nodes [] e) := by
  refine ⟨fun h => nodesAll_mem (oneLine_nodes h), fun h => ?_⟩
  show NodesNL (nodesAll [] es)
  induction es with
  | nil => unfold nodesAll; exact fun _ h => nomatch h
  | cons e es ih =>
    unfold nodesAll
    exact nodesNL_append.2 ⟨h e (List.mem_cons_self ..), ih fun e he => h e (List.mem_cons_of_mem _ he)⟩

theorem short_withValue {name : Str} {os : List Opt} {l : Literal} (h : ∀ o ∈ os, ShortComment o.inlineComment) :
    ShortComment (withValue name os l).inlineComment := by
  unfold withValue
  cases hf : lastOption name os with
  | none => show (0 : Nat) ≤ 1; omega
  | some o =>
    unfold lastOption at hf
    exact h o (List.mem_filter.1 (List.mem_of_getLast? hf)).1

theorem short_optionsOf {q : Params} {es : List Element} (h : ShortAll es) :
    ∀ o ∈ optionsOf q es, ShortComment o.inlineComment := by
  have hall : ∀ o ∈ optionsAmong es, ShortComment o.inlineComment := fun o ho => short_option h (mem_options ho)
  intro o hm
  unfold optionsOf at hm
  split at hm
  · exact hall o hm
  · rw [List.mem_append] at hm
    rcases hm with hm | hm
    · exact hall o (List.mem_filter.1 hm).1
    · split at hm
      · cases hm
      · unfold managedOptions at hm
        rcases List.mem_append.1 hm with hm | hm
        · simp only [List.mem_cons, List.not_mem_nil, or_false] at hm
          rcases hm with rfl | rfl | rfl | rfl <;> exact short_withValue hall
        · split at hm
          · simp only [List.mem_cons, List.not_mem_nil, or_false] at hm
            rcases hm with rfl | rfl | rfl <;> exact short_withValue hall
          · cases hm

theorem short_fixed {q : Params} {es : List Element} (h : ShortAll es) : ShortAll (fixedFile q es) :=
  shortAll_iff.2 fun e he => by
    rcases mem_fixed he with he | ⟨o, ho, rfl⟩
    · exact shortAll_iff.1 h e he
    · unfold ShortIn
      exact short_optionsOf h o ho

theorem outside_fixed {q : Params} {es : List Element} (h : AllOutside es) : AllOutside (fixedFile q es) :=
  allOutside_iff.2 fun e he => by
    rcases mem_fixed he with he | ⟨o, _, rfl⟩
    · exact allOutside_iff.1 h e he
    · unfold CommentsOutside
      trivial

theorem oneLine_fixed {q : Params} (hj : '\n' ∉ q.javaPackagePrefix) {es : List Element} (h : OneLine es) :
    OneLine (fixedFile q es) :=
  oneLine_iff.2 fun e he => by
    rcases mem_fixed he with he | ⟨o, ho, rfl⟩
    · exact oneLine_iff.1 h e he
    · unfold nodes
      exact nodesNL_cons.2 ⟨optNL_optionsOf hj h o ho, fun _ h => nomatch h⟩

theorem fits_fixed {q : Params} (hq : q.fix ≠ fixNone → Quotable q.filename ∧ Quotable q.javaPackagePrefix)
    {es : List Element} (h : FileFits es) : FileFits (fixedFile q es) := by
  intro b hb
  have hb : proto2Of es = some b := by rw [← hb]; unfold proto2Of; rw [fixed_syntaxes]
  refine elementsFit_iff.2 fun e he => ?_
  rcases mem_fixed he with he | ⟨o, ho, rfl⟩
  · exact elementsFit_iff.1 (h b hb) e he
  · unfold ElementFits
    exact fits_optionsOf hq (h b hb) o ho

end Verif.Format
