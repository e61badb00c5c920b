import Verif.Proof.FormatFile
import Verif.Props.FormatText
import Verif.Props.Text

/-!
# C35 and C36: formatting keeps the declarations and is stable

`transform` is what the formatter makes of a parsed file. `fileItems` in Spec/Layout.lean says
line by line what a formatted file looks like.
-/

namespace Verif.Props

open Verif Str Proto Spec Format

/-! ## C35 -/

/-- Options in the order of their names. -/
def OptionsInOrder (l : List Opt) : Prop := l.Pairwise fun a b => Str.lt b.name a.name = false

/-- Imports in the order of their file names. -/
def ImportsInOrder (l : List Import) : Prop := l.Pairwise fun a b => Str.lt b.filename a.filename = false

/-- Without `--fix` the text consists of the comments at the top, the first syntax and package
declaration, all options and all imports by name, and all other declarations as they come, each
once. The failures are those of the declarations that cannot be printed, in order. -/
theorem C35_layout (srt : SortSlice) (q : Params) (hq : q.fix = fixNone) (es : List Element)
    (text : Str) (failures : List Text.Failure) (h : transform srt q es = .ok (text, failures)) :
    ∃ (sort : List Opt → List Opt) (imports : List Import) (isProto2 : Bool),
      (∀ l, (sort l).Perm l ∧ OptionsInOrder (sort l)) ∧
      imports.Perm (importsAmong es) ∧ ImportsInOrder imports ∧ proto2Of es = some isProto2 ∧
      let items := fileItems sort isProto2
        ((es.takeWhile isComment).flatMap (elementItems sort isProto2 .none))
        (sort (optionsAmong es)) imports es
      text = finish items ∧ failures.Perm (problemsOf items) := by
  rcases transform_eq srt q (.inl hq) es with ⟨s, _, _, he⟩ | ⟨b, hb, he⟩
  · rw [he] at h; cases h
  · rw [he] at h
    cases h
    refine ⟨sortOpts srt, sortImps srt (importsAmong es), b,
      fun l => ⟨srt.perm _ l, srt.sorted _ l (SWO.str.on Opt.name)⟩, srt.perm _ _,
      srt.sorted _ _ (SWO.str.on Import.filename), hb, ?_⟩
    have htop : topItems q es = (es.takeWhile isComment).flatMap (elementItems (sortOpts srt) b .none) := by
      unfold topItems
      rw [if_neg fun h => h.1 hq]
      refine flatMap_congr' fun e he => ?_
      have := Picks.lead.mem_takeWhile' he
      cases e <;> first | rfl | cases this | (unfold elementItems; rfl)
    have ho : optionsOf q es = optionsAmong es := by unfold optionsOf; rw [if_pos hq]
    unfold layout
    rw [htop, ho]
    exact ⟨rfl, (C18_sorted _).1⟩
where
  flatMap_congr' {α β : Type} {l : List α} {f g : α → List β} (h : ∀ a ∈ l, f a = g a) :
      l.flatMap f = l.flatMap g := by
    induction l with
    | nil => rfl
    | cons a l ih =>
      rw [List.flatMap_cons, List.flatMap_cons, h a List.mem_cons_self,
        ih fun b hb => h b (List.mem_cons_of_mem _ hb)]

/-- A second syntax or package declaration is not printed, but then there is a failure. -/
theorem C35_duplicates (srt : SortSlice) (q : Params) (es : List Element) (text : Str)
    (h : transform srt q es = .ok (text, [])) :
    (syntaxesAmong es).length ≤ 1 ∧ (packagesAmong es).length ≤ 1 := by
  rcases transform_eq srt q (known_of_ok h) es with ⟨s, _, _, he⟩ | ⟨b, hb, he⟩
  · rw [he] at h; cases h
  · rw [he] at h
    have h2 : Text.sortFailures (problemsOf (layout srt q b es)) = [] := (Prod.mk.inj (Except.ok.inj h)).2
    have hp := (C18_sorted (problemsOf (layout srt q b es))).1
    rw [h2] at hp
    have hn : problemsOf (layout srt q b es) = [] := List.nil_perm.1 hp
    unfold layout fileItems at hn
    simp only [problemsOf_append, List.append_eq_nil_iff] at hn
    have hd : problemsOf (duplicateItems es) = [] := hn.1.1.1.1.1.1
    have hg := (duplicates_go false false es).filterMap (f := fun
      | .line _ _ => none
      | .problem f => some f)
    have hg : (problemsOf (duplicateItems es)).Perm (problemsOf _) := hg
    rw [hd, problemsOf_append] at hg
    have hg := List.nil_perm.1 hg
    rw [List.append_eq_nil_iff] at hg
    constructor
    · cases hs : syntaxesAmong es with
      | nil => exact Nat.zero_le _
      | cons s ss =>
        cases ss with
        | nil => exact Nat.le_refl _
        | cons t ss => rw [hs] at hg; exact (nomatch hg.1)
    · cases hs : packagesAmong es with
      | nil => exact Nat.zero_le _
      | cons s ss =>
        cases ss with
        | nil => exact Nat.le_refl _
        | cons t ss => rw [hs] at hg; exact (nomatch hg.2)

theorem statement_mem (t : Str) (c : Option Comment) :
    ∃ u, flush u ∈ noted t c ∧ statementLine t c = trimRightBy isSpace u ∧ t <+: u := by
  unfold noted statementLine
  cases c with
  | none => exact ⟨t, List.mem_cons_self, rfl, List.prefix_rfl⟩
  | some c =>
    dsimp only [Option.bind]
    cases c.lines with
    | nil => exact ⟨t, List.mem_cons_self, rfl, List.prefix_rfl⟩
    | cons l ls =>
      exact ⟨_, List.mem_cons_self, rfl, by rw [List.append_assoc]; exact List.prefix_append ..⟩

theorem note_mem {c : Comment} {l : Str} (h : l ∈ c.lines) :
    flush (s%"//" ++ l.dropWhile (· == '/')) ∈ note (some c) :=
  List.mem_map.2 ⟨l, h, rfl⟩

/-- Every syntax (the first), package (the first), import, option with a value and comment of the
file is a line of the text, with its comments. A value in braces starts on the line of its option.

What is missing: an option whose value is written `{}` is not printed at all (`C35_not`). -/
theorem C35_kept_partial (srt : SortSlice) (q : Params) (hq : q.fix = fixNone) (es : List Element)
    (hes : OneLine es) (text : Str) (failures : List Text.Failure)
    (h : transform srt q es = .ok (text, failures)) :
    (∀ s, (syntaxesAmong es).head? = some s →
      HasLine text (statementLine (s%"syntax = \"" ++ s.value ++ s%"\";") s.inlineComment) ∧
      ∀ l ∈ commentStrings s.comment, HasLine text (commentLine l)) ∧
    (∀ p, (packagesAmong es).head? = some p →
      HasLine text (statementLine (s%"package " ++ p.name ++ s%";") p.inlineComment) ∧
      ∀ l ∈ commentStrings p.comment, HasLine text (commentLine l)) ∧
    (∀ i ∈ importsAmong es,
      HasLine text (statementLine (s%"import " ++ (if i.kind = [] then [] else i.kind ++ s%" ") ++
        s%"\"" ++ i.filename ++ s%"\";") i.inlineComment) ∧
      ∀ l ∈ commentStrings i.comment, HasLine text (commentLine l)) ∧
    (∀ o ∈ optionsAmong es,
      (IsScalar o.constant → o.constant.sourceRepresentation ≠ [] →
        HasLine text (statementLine (s%"option " ++ o.name ++ s%" = " ++
          o.constant.sourceRepresentation ++ s%";") o.inlineComment)) ∧
      (o.constant.array = [] → o.constant.orderedMap ≠ [] →
        HasLine text (trimRightBy isSpace (s%"option " ++ o.name ++ s%" = {"))) ∧
      ∀ l ∈ commentStrings o.comment, HasLine text (commentLine l)) ∧
    ∀ c, .comment c ∈ es → ∀ l ∈ c.lines, HasLine text (commentLine l) := by
  obtain ⟨sort, imports, isProto2, hsort, himp, _, _, rfl, _⟩ := C35_layout srt q hq es text failures h
  have hflat : Flat (fileItems sort isProto2
        ((es.takeWhile isComment).flatMap (elementItems sort isProto2 .none))
        (sort (optionsAmong es)) imports es) := by
    refine fileItems_top _ _ _ _ _ _ Flat (fun _ _ => flat_append) ?_ (flat_file
      (fun l o ho => (hsort l).1.mem_iff.1 ho) isProto2 hes ?_ fun i hi => himp.mem_iff.1 hi)
    · exact flat_flatMap fun e he => flat_element (fun l o ho => (hsort l).1.mem_iff.1 ho) isProto2 .none [] e
        (nodesAll_mem (oneLine_nodes hes) e ((List.takeWhile_prefix _).subset he))
    · intro o ho
      have := nodesAll_mem (oneLine_nodes hes) _ (option_mem ((hsort _).1.mem_iff.1 ho))
      unfold nodes at this
      exact (nodesNL_cons.1 this).1
  generalize hitems : fileItems sort isProto2
        ((es.takeWhile isComment).flatMap (elementItems sort isProto2 .none))
        (sort (optionsAmong es)) imports es = items at hflat ⊢
  have line : ∀ {u : Str} {c : Char}, flush u ∈ items → u.head? = some c → isSpace c = false →
      HasLine (finish items) (trimRightBy isSpace u) := fun hm hc hsp =>
    hasLine_finish hm (hflat _ _ hm) (trimRight_head hc hsp) hsp
  have stmt : ∀ {t : Str} {k : Option Comment} {c : Char}, (∀ i ∈ noted t k, i ∈ items) →
      t.head? = some c → isSpace c = false → HasLine (finish items) (statementLine t k) := by
    intro t k c hm hc hsp
    obtain ⟨u, hu, he, hpre⟩ := statement_mem t k
    rw [he]
    exact line (hm _ hu) (head?_of_prefix hpre hc) hsp
  have cmt : ∀ {k : Option Comment}, (∀ i ∈ note k, i ∈ items) → ∀ l ∈ commentStrings k,
      HasLine (finish items) (commentLine l) := by
    intro k hm l hl
    cases k with
    | none => exact (List.not_mem_nil hl).elim
    | some k => exact line (hm _ (note_mem hl)) rfl rfl
  have sub : ∀ {i : Item}, (i ∈ syntaxItems (syntaxesAmong es).head? ∨
      i ∈ packageItems (packagesAmong es).head? ∨ i ∈ fileOptionItems (sort (optionsAmong es)) ∨
      i ∈ fileImportItems imports ∨ i ∈ (es.takeWhile isComment).flatMap (elementItems sort isProto2 .none) ∨
      i ∈ (es.dropWhile isComment).flatMap (elementItems sort isProto2 .none)) → i ∈ items := by
    intro i hi
    rw [← hitems]
    unfold fileItems
    simp only [List.mem_append]
    rcases hi with hi | hi | hi | hi | hi | hi <;> simp [hi]
  refine ⟨?_, ?_, ?_, ?_, ?_⟩
  · intro s hs
    rw [hs] at sub
    exact ⟨stmt (c := 's') (fun i hi => sub (.inl (List.mem_append_left _ (List.mem_append_right _ hi)))) rfl rfl,
      cmt fun i hi => sub (.inl (List.mem_append_left _ (List.mem_append_left _ (List.mem_append_left _ hi))))⟩
  · intro s hs
    rw [hs] at sub
    exact ⟨stmt (c := 'p') (fun i hi => sub (.inr (.inl (List.mem_append_left _
        (List.mem_append_right _ hi))))) rfl rfl,
      cmt fun i hi => sub (.inr (.inl (List.mem_append_left _ (List.mem_append_left _ hi))))⟩
  · intro i hi
    have hsub : ∀ x ∈ importItems i, x ∈ items := by
      intro x hx
      refine sub (.inr (.inr (.inr (.inl ?_))))
      have hne : imports ≠ [] := by
        rintro rfl
        rw [← himp.mem_iff] at hi
        exact List.not_mem_nil hi
      unfold fileImportItems
      rw [if_neg hne, List.mem_append]
      exact .inl (List.mem_flatMap.2 ⟨i, himp.mem_iff.2 hi, hx⟩)
    unfold importItems at hsub
    exact ⟨stmt (c := 'i') (fun x hx => hsub x (List.mem_append_right _ hx)) rfl rfl,
      cmt fun x hx => hsub x (List.mem_append_left _ hx)⟩
  · intro o ho
    have hsub : ∀ x ∈ optionStatement o, x ∈ items := by
      intro x hx
      refine sub (.inr (.inr (.inl ?_)))
      have hm := (hsort (optionsAmong es)).1.mem_iff.2 ho
      have hne : sort (optionsAmong es) ≠ [] := by
        intro hn
        rw [hn] at hm
        exact List.not_mem_nil hm
      unfold fileOptionItems
      rw [if_neg hne, List.mem_append]
      exact .inl (List.mem_flatMap.2 ⟨o, hm, hx⟩)
    unfold optionStatement optionItems at hsub
    refine ⟨fun hs hne => ?_, fun ha hm => ?_, cmt fun x hx => hsub x (List.mem_append_left _ hx)⟩
    · rw [if_pos hs, if_neg hne] at hsub
      exact stmt (c := 'o') (fun x hx => hsub x (List.mem_append_right _ hx)) rfl rfl
    · rw [if_neg (fun hs : IsScalar _ => hm hs.2), if_neg (fun h => h ha)] at hsub
      exact line (c := 'o') (hsub _ (List.mem_append_right _ (List.mem_append_left _ List.mem_cons_self))) rfl rfl
  · intro c hc
    refine cmt (k := some c) fun x hx => ?_
    have hx : x ∈ elementItems sort isProto2 .none (.comment c) := by
      unfold elementItems
      exact List.mem_append_left _ hx
    rw [← List.takeWhile_append_dropWhile (p := isComment) (l := es), List.mem_append] at hc
    rcases hc with hc | hc
    · exact sub (.inr (.inr (.inr (.inr (.inl (List.mem_flatMap.2 ⟨_, hc, hx⟩))))))
    · exact sub (.inr (.inr (.inr (.inr (.inr (List.mem_flatMap.2 ⟨_, hc, hx⟩))))))

/-- An option whose value is an empty aggregate disappears: the file `option x = {};` is formatted
to nothing, without a failure. -/
theorem C35_not (srt : SortSlice) (filename : Str) :
    transform srt ⟨filename, fixNone, [], []⟩
      [.option { name := s%"x", constant := .mk [] false '"' [] [] }] = .ok ([], []) := by
  rcases transform_eq srt ⟨filename, fixNone, [], []⟩ (.inl rfl)
      [.option { name := s%"x", constant := .mk [] false '"' [] [] }] with ⟨s, _, hs, _⟩ | ⟨b, _, he⟩
  · cases hs
  · rw [he]
    have : layout srt ⟨filename, fixNone, [], []⟩ b
        [.option { name := s%"x", constant := .mk [] false '"' [] [] }] = [blank] := by
      unfold layout fileItems
      have h1 : sortOpts srt (optionsOf ⟨filename, fixNone, [], []⟩
          [.option { name := s%"x", constant := .mk [] false '"' [] [] }]) =
          [{ name := s%"x", constant := .mk [] false '"' [] [] }] := sortOpts_one srt _
      have h2 : sortImps srt [] = [] := (sortImps_nil_iff srt []).2 rfl
      rw [h1]
      show _ ++ fileImportItems (sortImps srt []) ++ _ = _
      rw [h2]
      rfl
    rw [this]
    rfl

/-! ## C36 -/

/-- Formatting the file in the order of the formatter gives the same result, if sorting what is
sorted changes nothing. What is missing: with equal names the order after `sort.Slice` is
unspecified (`C36_not`). -/
theorem C36_fixed_point_partial (srt : SortSlice) (q : Params) (hq : q.fix = fixNone) (es : List Element)
    (ho : ∀ l ∈ sortedLists es, sortOpts srt (sortOpts srt l) = sortOpts srt l)
    (hi : sortImps srt (sortImps srt (importsAmong es)) = sortImps srt (importsAmong es)) :
    transform srt q (tidyFile (sortOpts srt) (sortImps srt) es) = transform srt q es :=
  transform_tidy srt hq es ho hi C18_canonical

theorem sort_twice {α : Type} (srt : SortSlice) (key : α → Str) (l : List α) (h : (l.map key).Nodup) :
    srt.run (fun a b => lt (key a) (key b)) (srt.run (fun a b => lt (key a) (key b)) l) =
      srt.run (fun a b => lt (key a) (key b)) l := by
  have hswo : SWO (fun a b => lt (key a) (key b)) := SWO.str.on key
  have hp := srt.perm (fun a b => lt (key a) (key b)) l
  refine List.Perm.eq_of_pairwise (le := fun a b => lt (key b) (key a) = false) ?_
    (srt.sorted _ _ hswo) (srt.sorted _ _ hswo) (srt.perm _ _)
  intro a b ha hb h1 h2
  have ha := hp.mem_iff.1 ((srt.perm _ _).mem_iff.1 ha)
  have hb := hp.mem_iff.1 hb
  exact inj_of_nodup h ha hb (Str.le_antisymm (by unfold Str.le; rw [h1]; rfl) (by unfold Str.le; rw [h2]; rfl))
where
  inj_of_nodup {key : α → Str} {l : List α} (h : (l.map key).Nodup) {a b : α} (ha : a ∈ l) (hb : b ∈ l)
      (he : key a = key b) : a = b := by
    induction l with
    | nil => cases ha
    | cons x l ih =>
      rw [List.map_cons, List.nodup_cons] at h
      rcases List.mem_cons.1 ha with ha' | ha <;> rcases List.mem_cons.1 hb with hb' | hb
      · rw [ha', hb']
      · exact absurd (List.mem_map.2 ⟨b, hb, by rw [← he, ha']⟩) h.1
      · exact absurd (List.mem_map.2 ⟨a, ha, by rw [he, hb']⟩) h.1
      · exact ih h.2 ha hb

/-- With distinct names in each list of options and distinct imports the order is a fixed point,
whatever `sort.Slice` does. -/
theorem C36_distinct (srt : SortSlice) (q : Params) (hq : q.fix = fixNone) (es : List Element)
    (ho : ∀ l ∈ sortedLists es, (l.map (·.name)).Nodup)
    (hi : ((importsAmong es).map (·.filename)).Nodup) :
    transform srt q (tidyFile (sortOpts srt) (sortImps srt) es) = transform srt q es :=
  C36_fixed_point_partial srt q hq es (fun l hl => sort_twice srt Opt.name l (ho l hl))
    (sort_twice srt Import.filename _ hi)

/-- If `sort.Slice` leaves a sorted list as it is, the order is a fixed point for every file. -/
theorem C36_settled (srt : SortSlice) (hs : ∀ {α : Type} (less : α → α → Bool) (l : List α), SWO less →
      (l.Pairwise fun a b => less b a = false) → srt.run less l = l)
    (q : Params) (hq : q.fix = fixNone) (es : List Element) :
    transform srt q (tidyFile (sortOpts srt) (sortImps srt) es) = transform srt q es :=
  C36_fixed_point_partial srt q hq es
    (fun l _ => hs _ _ (SWO.str.on Opt.name) (srt.sorted _ l (SWO.str.on Opt.name)))
    (hs _ _ (SWO.str.on Import.filename) (srt.sorted _ _ (SWO.str.on Import.filename)))

/-- An implementation of `sort.Slice` as documented, which swaps equal elements. -/
def swapping : SortSlice where
  run less l := sortBy (fun a b => !less b a) l.reverse
  perm _ l := (sortBy_perm _).trans l.reverse_perm
  sorted less l h := (sortBy_less_sorted h l.reverse).imp fun h => by simpa using h

/-- `option (x) = 1; option (x) = 2;` -/
def twoOptions : List Element :=
  [.option { name := s%"(x)", constant := .plain s%"1" },
   .option { name := s%"(x)", constant := .plain s%"2" }]

/-- With two options of one name the order need not be a fixed point: all that `sort.Slice`
promises allows the two to change places in every run. -/
theorem C36_not : ∃ srt : SortSlice, transform srt plainly (tidyFile (sortOpts srt) (sortImps srt) twoOptions) ≠
    transform srt plainly twoOptions := by
  refine ⟨swapping, fun h => ?_⟩
  have := congrArg Except.toOption h
  revert this
  decide +kernel

/-! ## The theorems are about something -/

example : ∀ l ∈ sortedLists unformatted, (l.map (·.name)).Nodup := by decide +kernel
example : ((importsAmong unformatted).map (·.filename)).Nodup := by decide +kernel
example : (tidyFile (sortOpts .stable) (sortImps .stable) unformatted).length = unformatted.length ∧
    (importsAmong (tidyFile (sortOpts .stable) (sortImps .stable) unformatted)).map (·.filename) =
      [s%"a.proto", s%"b.proto"] := by decide +kernel
example : (importsAmong unformatted).length = 2 ∧ (optionsAmong unformatted).length = 1 := by decide +kernel

/-- Two syntax declarations are a failure. -/
example : ((transform .stable plainly [.syntax { value := s%"proto3" }, .syntax { value := s%"proto3" }]).toOption.map
    fun r => r.2.length) = some 1 := by decide +kernel

end Verif.Props
