import Verif.Proof.Described
import Verif.Props.Interrupt
import Verif.Props.Readable
import Verif.Props.RoundTrip

/-!
# Formatting is never a breaking change: C110
-/

namespace Verif.Props

open Verif Str Proto Format Descriptor Spec Exec

/-- The managed options are not among what stays put. -/
theorem fixed_staysPut (q : Params) (es : List Element) :
    (fixedFile q es).filter staysPut = es.filter staysPut := by
  rw [fixedFile_eq, List.filter_append, List.filter_append]
  have h2 : ((optionsOf q es).map Element.option).filter staysPut = [] :=
    List.filter_eq_nil_iff.2 fun e he => by
      obtain ⟨o, _, rfl⟩ := List.mem_map.1 he
      simp [staysPut]
  rw [h2, List.nil_append, List.filter_filter]
  have h3 : (es.dropWhile isComment).filter (fun e => staysPut e && noOption e) =
      (es.dropWhile isComment).filter staysPut :=
    List.filter_congr fun e _ => by cases e <;> rfl
  rw [h3, ← List.filter_append, List.takeWhile_append_dropWhile]

/-- C110: **what protoc makes of a formatted text is what it makes of the file before**, up to the order of the imports
and to the options of the file, with `--fix` and without. -/
theorem C110_described (srt : SortSlice) (q : Params) (hk : q.fix = fixNone ∨ q.fix = fixV1 ∨ q.fix = fixV2)
    (hq : Fixable q) (es : List Element) (hf : FileFits es) (text : Str) (h : transform srt q es = .ok (text, [])) :
    ∃ read, readFile text = some read ∧ ∀ es', bareAll es' = read →
      namesAll (topScope es') es' = namesAll (topScope es) es ∧
      ∀ P names name, SameFile (describe P names name es) (describe P names name es') := by
  obtain ⟨src, sort, imports, hsort, himp, hpk, hst, hread⟩ : ∃ src sort imports,
      (∀ l, (sort l).Perm l) ∧ (imports : List Import).Perm (importsAmong src) ∧
      (packagesAmong src = packagesAmong es ∧ importsAmong src = importsAmong es) ∧
      src.filter staysPut = es.filter staysPut ∧
      readFile text = some (bareAll (tidyFile sort (fun _ => imports) src)) := by
    rcases hk with hk | hk
    · obtain ⟨sort, imports, h1, h2, _, h4⟩ := C87_read srt q hk es hf text h
      exact ⟨es, sort, imports, fun l => (h1 l).1, h2, ⟨rfl, rfl⟩, rfl, h4⟩
    · have hne : q.fix ≠ fixNone := by rcases hk with hk | hk <;> rw [hk] <;> decide
      obtain ⟨g1, g2, g3⟩ := hq hne
      obtain ⟨sort, imports, h1, h2, _, h4⟩ := C87_read_fix srt q hk g1 g2 g3 es hf text h
      exact ⟨fixedFile q es, sort, imports, fun l => (h1 l).1, by rw [fixed_imports]; exact h2,
        ⟨fixed_packages q es, fixed_imports q es⟩, fixed_staysPut q es, h4⟩
  refine ⟨_, hread, fun es' he' => ?_⟩
  obtain ⟨_, s2, _, s4, s5⟩ := C87_same sort hsort imports src himp
  have b2 : (packagesAmong (bareAll es')).map (·.name) = (packagesAmong es').map (·.name) := by
    have : packagesAmong (bareAll es') = (packagesAmong es').map fun s => { name := s.name } :=
      bare_among _ _ (fun _ => rfl) (fun e => by cases e <;> (unfold bare; rfl)) _
    rw [this, List.map_map]
    rfl
  have b4 : (importsAmong (bareAll es')).map (·.filename) = (importsAmong es').map (·.filename) := by
    have : importsAmong (bareAll es') =
        (importsAmong es').map fun s => { filename := s.filename, kind := s.kind } :=
      bare_among _ _ (fun _ => rfl) (fun e => by cases e <;> (unfold bare; rfl)) _
    rw [this, List.map_map]
    rfl
  have hp : (packagesAmong es').map (·.name) = (packagesAmong es).map (·.name) := by
    rw [← b2, he', s2, hpk.1]
  have hi : ((importsAmong es').map (·.filename)).Perm ((importsAmong es).map (·.filename)) := by
    rw [← b4, he', ← hpk.2]
    have := s4.map Prod.fst
    simpa only [List.map_map, Function.comp_def] using this
  have hs : bareAll (es'.filter staysPut) = bareAll (tidyAll sort (es.filter staysPut)) := by
    rw [← bare_filter_kept, he', s5, hst]
  exact ⟨(same_of_parts (P := ⟨fun _ _ _ => (0, []), id, id, fun _ => []⟩) (names := []) [] hp hi hs).2,
    fun P names name => (same_of_parts name hp hi hs).1⟩

/-- How files are formatted is one of the three ways. -/
theorem formatsAs_fix (fix : Bool) (config : Settings.LintConfig) (path : Str) :
    (formatsAs fix config path).fix = fixNone ∨ (formatsAs fix config path).fix = fixV1 ∨
      (formatsAs fix config path).fix = fixV2 := by
  unfold formatsAs
  split
  · dsimp only
    split
    · exact .inr (.inr rfl)
    · exact .inr (.inl rfl)
  · exact .inl rfl

/-- C110: **formatting some of the files changes the descriptors only in the order of imports and the options**, so that
all packages have the same definitions and imports as before. -/
theorem C110_redistributed (P : Protoc) (h : Host) (srt : SortSlice) (fix : Bool) (m : Meta) (files : List (Str × Str))
    (disk disk' : Disk)
    (formatted : ∀ x ∈ files, disk' x.2 = disk x.2 ∨ ∃ content text, disk x.2 = some content ∧
      Formats h srt fix m x.2 content text ∧ disk' x.2 = some text)
    (fits : ∀ x ∈ files, ∀ content es, disk x.2 = some content → h.parse x.2 content = .ok es → FileFits es)
    (fixable : ∀ x ∈ files, Fixable (formatsAs fix m.protoSet.config.lint x.2))
    (back : ∀ x ∈ files, ∀ content text, disk x.2 = some content → Formats h srt fix m x.2 content text →
      ReadsBack h x.2 text)
    (all all' : List FileDesc) (hnd : (files.map Prod.fst).Nodup) (hall : Described P h files disk all)
    (hall' : Described P h files disk' all') :
    (∀ f ∈ all, ∃ f' ∈ all', SameFile f f') ∧ (∀ f' ∈ all', ∃ f ∈ all, SameFile f f') ∧ Redistributed all all' := by
  have hone := hall.one_copy hnd
  have hone' := hall'.one_copy hnd
  obtain ⟨es, h1, h2⟩ := hall
  obtain ⟨es', h1', h2'⟩ := hall'
  have same : ∀ x ∈ files, namesAll (topScope (es' x)) (es' x) = namesAll (topScope (es x)) (es x) ∧
      ∀ P names name, SameFile (describe P names name (es x)) (describe P names name (es' x)) := by
    intro x hx
    obtain ⟨content, hc, hparse⟩ := h1 x hx
    obtain ⟨content', hc', hparse'⟩ := h1' x hx
    rcases formatted x hx with hd | ⟨content0, text, hd, hF, hd'⟩
    · rw [hd, hc] at hc'
      cases hc'
      rw [hparse] at hparse'
      injection hparse' with e
      rw [e]
      exact ⟨rfl, fun P names name => .refl _⟩
    · rw [hc] at hd
      cases hd
      rw [hc'] at hd'
      cases hd'
      have hb := back x hx _ _ hc hF
      obtain ⟨es0, hp0, ht⟩ := hF
      rw [hparse] at hp0
      injection hp0 with e
      subst e
      obtain ⟨read, hread, hsame⟩ := C110_described srt _ (formatsAs_fix _ _ _) (fixable x hx) (es x)
        (fits x hx _ _ hc hparse) _ ht
      obtain ⟨es1, hp1, hb1⟩ := hb read hread
      rw [hparse'] at hp1
      injection hp1 with e
      subst e
      exact hsame _ hb1
  have names : (files.flatMap fun y => namesAll (topScope (es' y)) (es' y)) =
      files.flatMap fun y => namesAll (topScope (es y)) (es y) := by
    have : ∀ l : List (Str × Str), (∀ x ∈ l, x ∈ files) → (l.flatMap fun y => namesAll (topScope (es' y)) (es' y)) =
        l.flatMap fun y => namesAll (topScope (es y)) (es y) := by
      intro l
      induction l with
      | nil => intro _; rfl
      | cons x l ih =>
        intro hl
        rw [List.flatMap_cons, List.flatMap_cons, (same x (hl x List.mem_cons_self)).1,
          ih fun y hy => hl y (List.mem_cons_of_mem _ hy)]
    exact this files fun _ hx => hx
  have left : ∀ f ∈ all, ∃ f' ∈ all', SameFile f f' := by
    intro f hf
    obtain ⟨x, hx, rfl⟩ := (h2 f).1 hf
    exact ⟨_, (h2' _).2 ⟨x, hx, rfl⟩, by rw [names]; exact (same x hx).2 _ _ _⟩
  have right : ∀ f' ∈ all', ∃ f ∈ all, SameFile f f' := by
    intro f hf
    obtain ⟨x, hx, rfl⟩ := (h2' f).1 hf
    exact ⟨_, (h2 _).2 ⟨x, hx, rfl⟩, by rw [names]; exact (same x hx).2 _ _ _⟩
  exact ⟨left, right, redistributed_of_same hone hone' left right⟩

/-- What `format` does to a file, however it ends: nothing, or the formatted text is there. -/
theorem formatted_or_not (h : Host) (hw : Writes h) (o : Order) (srt : SortSlice) (args : List Str)
    (flags : FormatFlags) (m : Meta) (hm : Finds h args m) (hd : Distinct m) (w : World) (path : Str) :
    (formatCmd h o srt args flags w).1.disk path = w.disk path ∨ ∃ f content text, Concerns h m f ∧ f.path = path ∧
      w.disk path = some content ∧ Formats h srt flags.fix m path content text ∧
      (formatCmd h o srt args flags w).1.disk path = some text := by
  obtain ⟨new, h1, h2⟩ := C101_log h hw o srt args flags w
  exact C101_between_partial h o srt args flags m hm hd w new h1 _ ⟨new, [], by simp, h2⟩ path

section Commands

variable (h : Host) (hp : Prints h) (hw : Writes h) (hj : h.json = true → ∀ f, ∃ t, h.toJSON f = .ok t) (t : Tools)
  (P : Protoc) (o : Order) (srt : SortSlice) (args fargs : List Str) (flags : FormatFlags) (m mf : Meta)
  (hm : Finds h fargs mf) (hd : Distinct mf) (files : List (Str × Str)) (hnd : (files.map Prod.fst).Nodup) (w : World)
  (fits : ∀ x ∈ files, ∀ content es, w.disk x.2 = some content → h.parse x.2 content = .ok es → FileFits es)
  (fixable : ∀ x ∈ files, Fixable (formatsAs flags.fix mf.protoSet.config.lint x.2))
  (back : ∀ x ∈ files, ∀ content text, w.disk x.2 = some content → Formats h srt flags.fix mf x.2 content text →
    ReadsBack h x.2 text)

include hp hw hj hm hd hnd fits fixable back

/-- C110: **whatever `format` has done, and however it ended, break check reports the same as before**, against any
descriptor set that the formatted files do not contain. -/
theorem C110_same_report (path data : Str) (hpath : path ≠ []) (hF : ∀ f, Concerns h mf f → f.path ≠ path)
    (hdata : w.disk path = some data) (set : FileSet) (hdec : t.decode data = .ok set)
    (w' : World) (hw' : w'.disk = (formatCmd h o srt fargs flags w).1.disk)
    (sets sets' : List FileSet) (hc : CompilesTo h args { doFileDescriptorSet := true } w.disk m sets)
    (hc' : CompilesTo h args { doFileDescriptorSet := true } w'.disk m sets')
    (hall : Described P h files w.disk sets.flatten) (hall' : Described P h files w'.disk sets'.flatten)
    (hv : DescriptorsOK sets.flatten) (hvf : DescriptorsOK set)
    (hft : FaithfulOn t.marshal fun f => f ∈ sets.flatten) (hft' : FaithfulOn t.marshal fun f => f ∈ sets'.flatten)
    (hff : FaithfulOn t.marshal fun f => f ∈ set) :
    ∃ failures, breakCheckCmd h t args [] path w =
        ({ w with out := w.out ++ breakLines h failures }, breakOutcome failures) ∧
      breakCheckCmd h t args [] path w' =
        ({ w' with out := w'.out ++ breakLines h failures }, breakOutcome failures) := by
  obtain ⟨hl, hr, hred⟩ := C110_redistributed P h srt flags.fix mf files w.disk w'.disk (fun x _ => by
    rw [hw']
    rcases formatted_or_not h hw o srt fargs flags mf hm hd w x.2 with e | ⟨_, content, text, _, _, h1, h2, h3⟩
    · exact .inl e
    · exact .inr ⟨content, text, h1, h2, h3⟩) fits fixable back _ _ hnd hall hall'
  have hv' := hv.of_same (hall'.one_copy hnd) hl hr
  have hset : [set].flatten = set := by simp
  have hff' : FaithfulOn t.marshal fun f => f ∈ [set].flatten := by rw [hset]; exact hff
  have hvf' : DescriptorsOK [set].flatten := by rw [hset]; exact hvf
  have hself : Redistributed [set].flatten [set].flatten :=
    redistributed_of_same hvf'.reflectable.one_copy hvf'.reflectable.one_copy (fun f hf => ⟨f, hf, .refl f⟩)
      fun f hf => ⟨f, hf, .refl f⟩
  have hsame := C08_same_outcome t.srt t.order t.marshal m.protoSet.config.break_ [set] [set] sets sets' hff' hff' hft
    hft' hvf'.reflectable hvf'.reflectable hv.reflectable hv'.reflectable hvf'.names hv.names hself hred
  obtain ⟨failures, hr⟩ : ∃ failures, Breaking.breakCheckSets t.srt t.order t.marshal m.protoSet.config.break_
      [set] sets = .ok failures := by
    obtain ⟨old, ho, hos⟩ := C12_schemaOK t.srt (t.order.sub (s%"from")) t.marshal [set] hff' hvf'
    obtain ⟨new, hn, hns⟩ := C12_schemaOK t.srt (t.order.sub (s%"to")) t.marshal sets hft hv
    obtain ⟨fs, hfs, _⟩ := C06_reports t.order m.protoSet.config.break_ old new hos hns
    exact ⟨fs, (breakCheckSets_eq t.srt t.order t.marshal _ [set] sets old new ho hn).trans hfs⟩
  have hkept : w'.disk path = some data := by
    rw [hw']
    rcases formatted_or_not h hw o srt fargs flags mf hm hd w path with e | ⟨f, _, _, h1, h2, _⟩
    · rw [e, hdata]
    · exact absurd h2 (hF f h1)
  exact ⟨failures, C66_descriptor_set h hp hj t args path hpath m sets w hc data hdata set hdec failures hr,
    C66_descriptor_set h hp hj t args path hpath m sets' w' hc' data hkept set hdec failures (hsame ▸ hr)⟩

/-- C110: **formatting is never a breaking change**. After `break descriptor-set -o path` and then `format`, with any
flags and however it ended, `break check` against what was written prints nothing and ends well. -/
theorem C110_not_breaking (hjson : h.json = false) (path : Str) (hpath : path ≠ [])
    (hF : ∀ f, Concerns h mf f → f.path ≠ path) (hfiles : ∀ x ∈ files, x.2 ≠ path)
    (w1 w' : World) (hrun : breakDescriptorSetCmd h t args path w = (w1, .ok ()))
    (hw' : w'.disk = (formatCmd h o srt fargs flags w1).1.disk)
    (sets sets' : List FileSet)
    (hc : CompilesTo h args { fullControl := true, includeImports := true } w.disk m sets)
    (hc' : CompilesTo h args { doFileDescriptorSet := true } w'.disk m sets')
    (hall : Described P h files w.disk sets.flatten) (hall' : Described P h files w'.disk sets'.flatten)
    (hv : DescriptorsOK sets.flatten) (hnames : ∀ x ∈ files, x.1 ≠ [])
    (hs : FaithfulOn t.sum fun f => f ∈ sets.flatten) (hft : FaithfulOn t.marshal fun f => f ∈ sets.flatten)
    (hft' : FaithfulOn t.marshal fun f => f ∈ sets'.flatten)
    (hdec : ∀ set data, IsMerged sets set → t.encodeProto set = .ok data → t.decode data = .ok set)
    (hb : ∀ k q, k ≠ q → Imports sets.flatten k q → IsBetaPackage q → IsBetaPackage k) :
    breakCheckCmd h t args [] path w' = (w', .ok ()) := by
  have hsame : ∀ x ∈ files, w1.disk x.2 = w.disk x.2 := by
    intro x hx
    have e := C67_only h t args true false path false w x.2 (by
      intro ht
      exact hfiles x hx (by simpa [IsTarget, hpath] using ht))
    have hb : breakDescriptorSetCmd h t args path w = descriptorSetCmd h t args true false path false w := by
      unfold breakDescriptorSetCmd
      rw [if_neg hpath]
    rw [← hb, hrun] at e
    exact e
  obtain ⟨hl, hr, hred⟩ := C110_redistributed P h srt flags.fix mf files w.disk w'.disk (fun x hx => by
    rw [hw', ← hsame x hx]
    rcases formatted_or_not h hw o srt fargs flags mf hm hd w1 x.2 with e | ⟨_, content, text, _, _, h1, h2, h3⟩
    · exact .inl e
    · exact .inr ⟨content, text, h1, h2, h3⟩) fits fixable back _ _ hnd hall hall'
  have hkept : w'.disk path = w1.disk path := by
    rw [hw']
    rcases formatted_or_not h hw o srt fargs flags mf hm hd w1 path with e | ⟨f, _, _, h1, h2, _⟩
    · exact e
    · exact absurd h2 (hF f h1)
  refine C70_round_trip h h hp hp hjson hj t args args path hpath m m sets sets' w w1 w' hc hs hft ?_ hv hdec hrun
    hkept hc' (hv.of_same (hall'.one_copy hnd) hl hr) hft' hred hb
  obtain ⟨es, _, h2⟩ := hall
  intro f hf
  obtain ⟨x, hx, rfl⟩ := (h2 f).1 hf
  exact hnames x hx

end Commands

/-! ## The theorems are about something -/

namespace DescribedExample

open ReflectExample

/-- A file that is not formatted. -/
def text : Str :=
  s%"syntax=\"proto3\";package b.v1;option go_package=\"b\";message User{repeated User friends=2;oneof x{string id=1;}}enum Kind{KIND_INVALID=0;}"

/-- What is in it. -/
def elements : List Element :=
  [.syntax { value := s%"proto3" }, .package { name := s%"b.v1" },
   .option { name := s%"go_package", constant := .str s%"b" },
   .message { name := s%"User" }
     [.normalField { repeated := true, field := { name := s%"friends", type := s%"User", sequence := 2 } },
      .oneof { name := s%"x" } [.oneofField { name := s%"id", type := s%"string", sequence := 1 }]],
   .enum { name := s%"Kind" } [.enumField { name := s%"KIND_INVALID", integer := 0 } []]]

/-- The text that `format --fix` makes of it. -/
def fixed : Str :=
  s%"syntax = \"proto3\";\n\npackage b.v1;\n\noption go_package = \"v1pb\";\noption java_multiple_files = true;\noption java_outer_classname = \"UserProto\";\noption java_package = \"com.b.v1\";\n\nmessage User {\n  repeated User friends = 2;\n  oneof x {\n    string id = 1;\n  }\n}\n\nenum Kind {\n  KIND_INVALID = 0;\n}\n"

/-- What is in that. -/
def fixedElements : List Element :=
  [.syntax { value := s%"proto3" }, .package { name := s%"b.v1" },
   .option { name := s%"go_package", constant := .str s%"v1pb" },
   .option { name := s%"java_multiple_files", constant := .plain s%"true" },
   .option { name := s%"java_outer_classname", constant := .str s%"UserProto" },
   .option { name := s%"java_package", constant := .str s%"com.b.v1" },
   .message { name := s%"User" }
     [.normalField { repeated := true, field := { name := s%"friends", type := s%"User", sequence := 2 } },
      .oneof { name := s%"x" } [.oneofField { name := s%"id", type := s%"string", sequence := 1 }]],
   .enum { name := s%"Kind" } [.enumField { name := s%"KIND_INVALID", integer := 0 } []]]

set_option maxRecDepth 100000 in
theorem text_read : readFile text = some elements := by rfl

set_option maxRecDepth 100000 in
theorem fixed_read : readFile fixed = some fixedElements := by rfl

theorem fixed_bare : bareAll fixedElements = fixedElements := by rfl

/-- The path of the file. -/
def path : Str := s%"/w/b/user.proto"

/-- How it is formatted. -/
def q : Params := formatsAs true Spec.Sample.config.lint path

set_option maxRecDepth 100000 in
theorem text_fixed : Format.transform SortSlice.stable q elements = .ok (fixed, []) := by rfl

theorem elements_fit : FileFits elements := by
  intro b hb
  obtain rfl : false = b := Option.some.inj hb
  unfold elements
  simp only [ElementsFit, ElementFits, fieldFits_iff, onlyOption_cons, onlyOption_nil, optionsFit_cons,
    optionsFit_nil, OnlyOption]
  simp only [optionFits_iff, ValueFits, ListFits, EntriesFit, EntryFits,
    CommentFits, IsWord, IsName, LabelFits, Literal.plain, Literal.str, if_true, if_false, Bool.false_eq_true]
  repeat' apply And.intro
  all_goals first | trivial | decide +kernel | (simp [holdsMessages]; done) |
    (simp [ValueFits, IsWord]; decide +kernel)

theorem q_fixable : Fixable q := fun _ => ⟨by rfl, by unfold Quotable; decide, by unfold Quotable; decide⟩

/-- A compiler that looks types up in the package. -/
def P : Protoc where
  resolve names scope type := if type = s%"string" then (9, []) else
    (((names.find? fun x => x.1 = nameAt (scope.take 1) type).map (·.2)).getD 11, nameAt (scope.take 1) type)
  entryName n := n ++ s%"Entry"
  groupField n := n
  rest es := s%"rest" ++ es.flatMap fun _ => s%"."

/-- The descriptor of the file. -/
def desc (rest : Str) : FileDesc where
  name := s%"b/user.proto"
  package := s%"b.v1"
  dependency := []
  messages := [.mk s%"User" [] [] [⟨s%"friends", 2, 3, 11, s%".b.v1.User", none⟩, ⟨s%"id", 1, 1, 9, [], some 0⟩] [s%"x"]]
  enums := [⟨s%"Kind", [⟨s%"KIND_INVALID", 0⟩]⟩]
  services := []
  rest := rest

theorem elements_described : describe P (namesAll (topScope elements) elements) s%"b/user.proto" elements =
    desc s%"rest....." := by rfl

theorem fixed_described : describe P (namesAll (topScope fixedElements) fixedElements) s%"b/user.proto" fixedElements =
    desc s%"rest........" := by rfl

/-- `C110_described` at work: the descriptors differ, though not in what break check looks at. -/
example : desc s%"rest....." ≠ desc s%"rest........" ∧ SameFile (desc s%"rest.....") (desc s%"rest........") := by
  refine ⟨by unfold desc; intro h; injection h with _ _ _ _ _ _ h; revert h; decide, ?_⟩
  obtain ⟨read, h1, h2⟩ := C110_described SortSlice.stable q (formatsAs_fix _ _ _) q_fixable elements elements_fit fixed
    text_fixed
  rw [fixed_read] at h1
  cases h1
  obtain ⟨h3, h4⟩ := h2 fixedElements fixed_bare
  rw [← elements_described, ← fixed_described, h3]
  exact h4 P _ _

/-- The directory with the file. -/
def dirB : Meta :=
  { protoSet :=
      { workDirPath := s%"/w", dirPath := s%"/w/b", dirPathToFiles := [(s%"/w/b", [⟨path, s%"b/user.proto"⟩])]
        config := Spec.Sample.config } }

/-- A host on which protoc describes the file. -/
def host : Host :=
  { Exec.Sample.host with
    stat := fun p => if p = s%"b" then .ok .dir else .error s%"no such file"
    getForDir := fun _ p => if p = s%"b" then .ok dirB.protoSet else .error s%"no such directory"
    parse := fun _ c => match Spec.readFile c with
      | some es => .ok es
      | none => .error s%"cannot be parsed"
    compile := fun _ disk _ => match (disk path).bind Spec.readFile with
      | some es => .ok ([], [[describe P (namesAll (topScope es) es) s%"b/user.proto" es]])
      | none => .error s%"cannot be compiled" }

theorem parses {p c : Str} {es : List Element} (hr : Spec.readFile c = some es) : host.parse p c = .ok es := by
  show (match Spec.readFile c with
    | some es => Except.ok es
    | none => .error s%"cannot be parsed") = _
  rw [hr]

theorem compiles (flags : CompileFlags) (disk : Disk) (c : Str) (es : List Element) (hd : disk path = some c)
    (hr : Spec.readFile c = some es) :
    CompilesTo host [s%"b"] flags disk dirB [[describe P (namesAll (topScope es) es) s%"b/user.proto" es]] ∧
      Described P host [(s%"b/user.proto", path)] disk
        [describe P (namesAll (topScope es) es) s%"b/user.proto" es] := by
  refine ⟨⟨⟨s%"b", .inl rfl, .inl ⟨rfl, rfl, rfl⟩⟩, ⟨_, rfl⟩, ?_⟩, fun _ => es, ?_, ?_⟩
  · show (match (disk path).bind Spec.readFile with
      | some es => (Except.ok (([] : List _), [[describe P (namesAll (topScope es) es) s%"b/user.proto" es]]) : Except Err _)
      | none => .error s%"cannot be compiled") = _
    rw [hd]
    show (match Spec.readFile c with
      | some es => (Except.ok (([] : List _), [[describe P (namesAll (topScope es) es) s%"b/user.proto" es]]) : Except Err _)
      | none => .error s%"cannot be compiled") = _
    rw [hr]
  · intro x hx
    obtain rfl := List.mem_singleton.1 hx
    exact ⟨c, hd, parses hr⟩
  · intro f
    simp

/-- An encoding of the one set that there is. -/
def exampleTools : Tools :=
  { Exec.Sample.tools with encodeProto := fun _ => .ok s%"E", decode := fun _ => .ok [desc s%"rest....."] }

/-- The file is not formatted. -/
def before : World where
  disk p := if p = path then some text else none

theorem desc_valid (rest : Str) : DescriptorsOK [desc rest] := by
  have one : ∀ f ∈ [desc rest], f = desc rest := fun f hf => List.mem_singleton.1 hf
  refine ⟨⟨?_, ?_, ?_, ?_, ?_⟩, ⟨?_, ?_, ?_, ?_, ?_, ?_⟩, ?_, ?_⟩
  · intro f hf; rw [one f hf]; exact ⟨by simp [desc], by simp [desc, Qualified]⟩
  · intro f hf g hg _; rw [one f hf, one g hg]
  · intro f hf d hd; rw [one f hf] at hd; cases hd
  · intro f hf; rw [one f hf]; simp [desc, MessagesQualified, MessageQualified, FieldQualified, Qualified]
  · intro f hf s hs; rw [one f hf] at hs; cases hs
  · intro f hf; rw [one f hf]; simp [desc]
  · intro f hf; rw [one f hf]; simp [desc]
  · intro f hf; rw [one f hf]; simp [desc]
  · intro f hf g hg _ _ _ _ _ _; rw [one f hf, one g hg]
  · intro f hf g hg _ _ _ _ _ _; rw [one f hf, one g hg]
  · intro f hf g hg _ _ _ _ _ _; rw [one f hf, one g hg]
  · intro f hf; rw [one f hf]; simp [desc, MessagesValid, MessageValid, NamesType]
  · intro f hf s hs; rw [one f hf] at hs; cases hs

theorem desc_faithful (d : FileDesc) : FaithfulOn byName fun f => f ∈ [d] :=
  ⟨fun f _ => ⟨_, rfl⟩, fun f g _ hf hg _ _ => by rw [List.mem_singleton.1 hf, List.mem_singleton.1 hg]⟩

theorem merged_one {d : FileDesc} {set : FileSet} (h : IsMerged [[d]] set) : set = [d] := by
  obtain ⟨h1, h2⟩ := h
  have hmem : ∀ f, f ∈ set ↔ f = d := fun f => by rw [h2]; simp
  match set, h1, hmem with
  | [], _, hmem => cases (hmem d).2 rfl
  | [f], _, hmem => rw [(hmem f).1 List.mem_cons_self]
  | f :: g :: l, h1, hmem =>
    have hf := (hmem f).1 List.mem_cons_self
    have hg := (hmem g).1 (List.mem_cons_of_mem _ List.mem_cons_self)
    have := (List.pairwise_cons.1 h1).1 g List.mem_cons_self
    rw [hf, hg, Str.lt_irrefl] at this
    cases this

theorem only (f : File.ProtoFile) (hf : Concerns host dirB f) : f.path = path := by
  obtain ⟨⟨d, files, h1, _, h2⟩, _⟩ := hf
  obtain ⟨rfl, rfl⟩ : d = s%"/w/b" ∧ files = [⟨path, s%"b/user.proto"⟩] := by
    have := List.mem_singleton.1 h1
    exact ⟨congrArg Prod.fst this, congrArg Prod.snd this⟩
  rw [List.mem_singleton.1 h2]

/-- What is there after the first command. -/
def between : World where
  disk := Disk.set before.disk s%"/w/F" (some s%"E")
  writes := [(s%"/w/F", s%"E")]

set_option maxRecDepth 100000 in
theorem between_fixed : (formatCmd host Order.rev SortSlice.stable [s%"b"] { fix := true, overwrite := true }
    between).1.disk path = some fixed := by decide +kernel

theorem F_apart : path ≠ s%"/w/F" := by decide

theorem named : s%"b/user.proto" ≠ [] := by decide

set_option maxRecDepth 100000 in
theorem text_differs : some fixed ≠ before.disk path := by decide +kernel

theorem fits_ok (w : World) (hw : w.disk path = some text) : ∀ x ∈ [(s%"b/user.proto", path)], ∀ content es,
    w.disk x.2 = some content → host.parse x.2 content = .ok es → FileFits es := by
  intro x h content es h1 h2
  rw [List.mem_singleton.1 h] at h1 h2
  rw [hw] at h1
  cases h1
  rw [parses text_read] at h2
  injection h2 with h2
  exact h2 ▸ elements_fit

theorem fixable_ok : ∀ x ∈ [(s%"b/user.proto", path)],
    Fixable (formatsAs true dirB.protoSet.config.lint x.2) := by
  intro x h
  rw [List.mem_singleton.1 h]
  exact q_fixable

theorem back_ok (w : World) (hw : w.disk path = some text) : ∀ x ∈ [(s%"b/user.proto", path)], ∀ content t,
    w.disk x.2 = some content → Formats host SortSlice.stable true dirB x.2 content t → ReadsBack host x.2 t := by
  intro x h content t h1 h2 read hread
  rw [List.mem_singleton.1 h] at h1 h2 ⊢
  rw [hw] at h1
  cases h1
  obtain ⟨es, h3, h4⟩ := h2
  rw [parses text_read] at h3
  injection h3 with h3
  subst h3
  have := text_fixed.symm.trans h4
  injection this with this
  injection this with this _
  subst this
  rw [fixed_read] at hread
  cases hread
  exact ⟨fixedElements, parses fixed_read, fixed_bare⟩

/-- The file `/w/F` holds the descriptors of other packages. -/
def otherTools : Tools := { Exec.Sample.tools with decode := fun _ => .ok old.flatten }

/-- Against the descriptors of other packages, the check reports the same before `format --fix --overwrite b`
and after. -/
example (w2 : World)
    (h2 : w2 = (formatCmd host Order.rev SortSlice.stable [s%"b"] { fix := true, overwrite := true } between).1) :
    ∃ failures, breakCheckCmd host otherTools [s%"b"] [] s%"/w/F" between =
        ({ between with out := between.out ++ breakLines host failures }, breakOutcome failures) ∧
      breakCheckCmd host otherTools [s%"b"] [] s%"/w/F" w2 =
        ({ w2 with out := w2.out ++ breakLines host failures }, breakOutcome failures) := by
  have hc := compiles { doFileDescriptorSet := true } between.disk text elements (by rfl) text_read
  rw [elements_described] at hc
  have hc2 := compiles { doFileDescriptorSet := true } w2.disk fixed fixedElements (by rw [h2]; exact between_fixed)
    fixed_read
  rw [fixed_described] at hc2
  exact C110_same_report host (fun _ _ => rfl) (fun _ _ => rfl) (fun h => (nomatch h)) otherTools P Order.rev
    SortSlice.stable [s%"b"] [s%"b"] { fix := true, overwrite := true } dirB dirB hc.1.1 (by unfold Distinct; decide)
    [(s%"b/user.proto", path)] (by decide) between (fits_ok between rfl) fixable_ok (back_ok between rfl) s%"/w/F" s%"E"
    (by decide) (fun f hf => by rw [only f hf]; exact F_apart) rfl old.flatten rfl w2 (by rw [h2])
    [[desc s%"rest....."]] [[desc s%"rest........"]] hc.1 hc2.1 hc.2 hc2.2 (desc_valid _) old_valid (desc_faithful _)
    (desc_faithful _) old_faithful

/-- `break descriptor-set -o /w/F b`, then `format --fix --overwrite b`, then a clean
`break check --descriptor-set-path /w/F b`. -/
example (w1 w2 : World) (h1 : w1 = (breakDescriptorSetCmd host exampleTools [s%"b"] s%"/w/F" before).1)
    (h2 : w2 = (formatCmd host Order.rev SortSlice.stable [s%"b"] { fix := true, overwrite := true } w1).1) :
    w2.disk path = some fixed ∧ w2.disk path ≠ before.disk path ∧
      breakCheckCmd host exampleTools [s%"b"] [] s%"/w/F" w2 = (w2, .ok ()) := by
  have hc := compiles { fullControl := true, includeImports := true } before.disk text elements (by rfl) text_read
  rw [elements_described] at hc
  obtain ⟨set, hs, hall⟩ := C67_written host (fun _ _ => rfl) exampleTools [s%"b"] true false dirB _ before
    hc.1 (desc_faithful _) (by intro f hf; rw [List.mem_singleton.1 hf]; decide)
    (desc_valid _).reflectable.one_copy
  have hrun := (hall _ rfl).2.1 s%"/w/F" (by decide) rfl rfl rfl
  rw [← (C67_break_descriptor_set host exampleTools [s%"b"] before).2 s%"/w/F" (by decide)] at hrun
  have hw1 : w1 = between := by
    rw [h1, hrun]
    rfl
  have hw2 : w2.disk path = some fixed := by
    rw [h2, hw1]
    exact between_fixed
  have hc2 := compiles { doFileDescriptorSet := true } w2.disk fixed fixedElements hw2 fixed_read
  rw [fixed_described] at hc2
  refine ⟨hw2, by rw [hw2]; exact text_differs, ?_⟩
  have hx : ∀ x ∈ [(s%"b/user.proto", path)], x = (s%"b/user.proto", path) := fun x hx => List.mem_singleton.1 hx
  refine C110_not_breaking host (fun _ _ => rfl) (fun _ _ => rfl) (fun h => (nomatch h)) exampleTools P Order.rev
    SortSlice.stable [s%"b"] [s%"b"] { fix := true, overwrite := true } dirB dirB hc.1.1 (by unfold Distinct; decide)
    [(s%"b/user.proto", path)] (by decide) before ?_ ?_ ?_ rfl s%"/w/F" (by decide) ?_ ?_ w1 w2 (by rw [hw1]; exact hrun) (by rw [h2])
    [[desc s%"rest....."]] [[desc s%"rest........"]] hc.1 hc2.1 hc.2 hc2.2 (desc_valid _) ?_ (desc_faithful _)
    (desc_faithful _) (desc_faithful _) ?_ ?_
  · exact fits_ok before rfl
  · exact fixable_ok
  · exact back_ok before rfl
  · intro f hf
    rw [only f hf]
    exact F_apart
  · intro x h
    rw [hx x h]
    exact F_apart
  · intro x h
    rw [hx x h]
    exact named
  · intro set data h _
    rw [merged_one h]
    rfl
  · rintro k q hne ⟨f, hf, rfl, d, hd, _⟩
    rw [List.mem_singleton.1 hf] at hd
    cases hd

end DescribedExample

end Verif.Props
