import Verif.Proof.FormatFix
import Verif.Props.FormatText
import Verif.Props.LintOther
import Verif.Props.Managed
import Verif.Props.Text

/-!
# C37: `format --fix` makes the file option linters pass

`fixedFile q es` is the file with the managed options replaced. The formatter prints the file
with `--fix` as it prints that file without (`C37_rewritten`), and that file has the options the
rules ask for.
-/

namespace Verif.Props

open Verif Str Proto Spec Format

/-- Formatting with `--fix` is formatting the file with the managed options replaced. -/
theorem C37_rewritten (srt : SortSlice) (q : Params) (hq : q.fix = fixV1 ∨ q.fix = fixV2)
    (hh : q.fileHeader = []) (es : List Element) (hp : packagesAmong es ≠ []) :
    transform srt q es = transform srt { q with fix := fixNone } (fixedFile q es) :=
  transform_fixed srt (.inr hq) (fun h => by rcases hq with h' | h' <;> rw [h] at h' <;> cases h') hh es hp
    C18_canonical

/-- With a header, the header stands at the top in place of the comments there, and the rest is
the same. -/
theorem C37_headed (srt : SortSlice) (q : Params) (hq : q.fix = fixV1 ∨ q.fix = fixV2)
    (hh : q.fileHeader ≠ []) (es : List Element)
    (text : Str) (failures : List Text.Failure) (h : transform srt q es = .ok (text, failures)) :
    ∃ (sort : List Opt → List Opt) (imports : List Import) (isProto2 : Bool),
      (∀ l, (sort l).Perm l) ∧ imports.Perm (importsAmong es) ∧ proto2Of es = some isProto2 ∧
      let items := fileItems sort isProto2 [flush q.fileHeader, blank] (sort (optionsOf q es)) imports es
      text = finish items ∧ failures.Perm (problemsOf items) := by
  rcases transform_eq srt q (.inr hq) es with ⟨s, _, _, he⟩ | ⟨b, hb, he⟩
  · rw [he] at h; cases h
  · rw [he] at h
    cases h
    refine ⟨sortOpts srt, sortImps srt (importsAmong es), b, fun l => srt.perm _ l, srt.perm _ _, hb, ?_⟩
    have htop : topItems q es = [flush q.fileHeader, blank] := by
      unfold topItems
      rw [if_pos ⟨fun h => (by rcases hq with h' | h' <;> rw [h] at h' <;> cases h'), hh⟩]
    unfold layout
    rw [htop]
    exact ⟨rfl, (C18_sorted _).1⟩

/-- The text then begins with the header, as FILE_HEADER asks. -/
theorem C37_header (srt : SortSlice) (q : Params) (hq : q.fix = fixV1 ∨ q.fix = fixV2)
    (htrim : Trimmed q.fileHeader) (es : List Element) (text : Str) (failures : List Text.Failure)
    (h : transform srt q es = .ok (text, failures)) : q.fileHeader <+: text := by
  by_cases hh : q.fileHeader = []
  · rw [hh]; exact List.nil_prefix
  obtain ⟨sort, imports, isProto2, _, _, _, ht, _⟩ := C37_headed srt q hq hh es text failures h
  have hline : lineText 0 q.fileHeader = q.fileHeader ++ ['\n'] := by
    unfold lineText
    rw [show List.replicate (2 * 0) ' ' ++ q.fileHeader = q.fileHeader from rfl,
      trimRightBy_eq_self htrim.2]
  obtain ⟨rest, htext⟩ : ∃ rest, textOf (fileItems sort isProto2 [flush q.fileHeader, blank]
      (sort (optionsOf q es)) imports es) = q.fileHeader ++ rest := by
    unfold fileItems
    simp only [List.append_assoc, textOf_append]
    rw [duplicates_text, List.nil_append]
    rw [show textOf [flush q.fileHeader, blank] = lineText 0 q.fileHeader ++ (lineText 0 [] ++ []) from rfl, hline]
    simp only [List.append_assoc]
    exact ⟨_, rfl⟩
  have key := prefix_trimSpace htrim hh rest
  rw [ht]
  unfold finish
  rw [htext]
  split
  · rename_i hn
    rw [hn] at key
    exact key
  · exact key.trans (List.prefix_append _ _)
where
  prefix_trimSpace {s : Str} (hs : Trimmed s) (hn : s ≠ []) (rest : Str) : s <+: trimSpace (s ++ rest) := by
    unfold trimSpace trimLeftBy
    have h1 : (s ++ rest).dropWhile isSpace = s ++ rest := by
      refine dropWhile_eq_self ?_
      intro c hc
      cases s with
      | nil => exact absurd rfl hn
      | cons x s => exact hs.1 c hc
    rw [h1]
    unfold trimRightBy
    rw [List.reverse_append]
    obtain ⟨c, hc⟩ : ∃ c, s.getLast? = some c := by
      cases h : s.getLast? with
      | none => exact absurd (List.getLast?_eq_none_iff.1 h) hn
      | some c => exact ⟨c, rfl⟩
    have hf := hs.2 c hc
    have hr : s.reverse.head? = some c := by rw [List.head?_reverse]; exact hc
    suffices h : ∃ t, (rest.reverse ++ s.reverse).dropWhile isSpace = t ++ s.reverse by
      obtain ⟨t, ht⟩ := h
      rw [ht, List.reverse_append, List.reverse_reverse]
      exact List.prefix_append _ _
    generalize rest.reverse = r
    generalize s.reverse = z at hr
    induction r with
    | nil =>
      refine ⟨[], ?_⟩
      cases z with
      | nil => cases hr
      | cons x z =>
        cases hr
        exact List.dropWhile_cons_of_neg (by simp [hf])
    | cons x r ih =>
      rw [List.cons_append, List.dropWhile_cons]
      split
      · exact ih
      · exact ⟨x :: r, rfl⟩

/-- So the rule is silent about the text. -/
theorem C37_header_silent (srt : SortSlice) (q : Params) (hq : q.fix = fixV1 ∨ q.fix = fixV2)
    (htrim : Trimmed q.fileHeader) (es : List Element) (text : Str) (failures : List Text.Failure)
    (h : transform srt q es = .ok (text, failures)) (d : Lint.FileDescriptor) (hd : d.fileData = text)
    (hc : d.config.lint.fileHeader = q.fileHeader) (dirPath : Str) :
    Lint.fileHeaderLinter.check dirPath [d] = some (.ok []) := by
  obtain ⟨fs, hfs, hp, _⟩ := C57_file_header dirPath [d] fun _ _ => trivial
  have hpre := C37_header srt q hq htrim es text failures h
  rw [List.flatMap_singleton, if_neg (fun hn => hn (by rw [hc, hd]; exact hpre))] at hp
  rw [hfs, List.map_eq_nil_iff.1 (List.perm_nil.1 hp)]

/-! ## The options -/

theorem declares_fixed {q : Params} {es : List Element} {p : Package} {d : Lint.FileDescriptor}
    (hq : q.fix ≠ fixNone) (hp : packagesAmong es = [p]) (hd : d.elements = fixedFile q es) {name value : Str}
    {l : Literal} (hl : l.source = value) (hn : name ∈ managedNames)
    (h : (managedOptions q p.name (optionsAmong es)).filter (fun o => o.name = name) =
      [withValue name (optionsAmong es) l]) : Declares d name value := by
  refine ⟨withValue name (optionsAmong es) l, ?_, by rw [withValue_constant, hl]⟩
  unfold optionsNamed
  rw [fileOptions_eq, hd, fixed_options, managed_filter q es hq hp hn, h]

theorem outer_eq {a b : Str} (ha : a ≠ []) (hb : b ≠ []) (h : Path.base a = Path.base b) :
    Protostrs.javaOuterClassname a = Protostrs.javaOuterClassname b := by
  unfold Protostrs.javaOuterClassname
  rw [if_neg ha, if_neg hb, h]

/-- With group `uber2` the fixed file has the options the group requires. -/
theorem C37_uber2 (q : Params) (hq : q.fix = fixV2) (es : List Element) (p : Package)
    (hp : packagesAmong es = [p]) (d : Lint.FileDescriptor) (hd : d.elements = fixedFile q es)
    (hf : d.filename ≠ []) (hf' : q.filename ≠ []) (hbase : Path.base d.filename = Path.base q.filename)
    (hpre : d.config.lint.javaPackagePrefix = q.javaPackagePrefix) : Options2 d p.name := by
  have hn : q.fix ≠ fixNone := by rw [hq]; decide
  refine ⟨hf, by rw [packages_eq, hd, fixed_packages, hp]; rfl, ?_, ?_, ?_, ?_, ?_, ?_, ?_⟩
  · exact declares_fixed hn hp hd (l := .str (Protostrs.csharpNamespace p.name)) rfl (by decide) (by
      unfold managedOptions; simp [withValue_name, hq])
  · exact declares_fixed hn hp hd (l := .str (Protostrs.goPackageV2 p.name)) rfl (by decide) (by
      unfold managedOptions; simp [withValue_name, hq])
  · exact declares_fixed hn hp hd (l := .plain s%"true") rfl (by decide) (by
      unfold managedOptions; simp [withValue_name, hq])
  · rw [outer_eq hf hf' hbase]
    exact declares_fixed hn hp hd (l := .str (Protostrs.javaOuterClassname q.filename)) rfl (by decide) (by
      unfold managedOptions; simp [withValue_name, hq])
  · rw [hpre]
    exact declares_fixed hn hp hd (l := .str (Protostrs.javaPackagePrefixOverride p.name q.javaPackagePrefix)) rfl (by decide) (by
      unfold managedOptions; simp [withValue_name, hq])
  · exact declares_fixed hn hp hd (l := .str (Protostrs.objcClassPrefix p.name)) rfl (by decide) (by
      unfold managedOptions; simp [withValue_name, hq])
  · exact declares_fixed hn hp hd (l := .str (Protostrs.phpNamespace p.name)) rfl (by decide) (by
      unfold managedOptions; simp [withValue_name, hq])

/-- So all the rules of `uber2` about the options of a file are silent. -/
theorem C37_uber2_silent (q : Params) (hq : q.fix = fixV2) (es : List Element) (p : Package)
    (hp : packagesAmong es = [p]) (hsemi : ';' ∉ p.name) (d : Lint.FileDescriptor)
    (hd : d.elements = fixedFile q es)
    (hf : d.filename ≠ []) (hf' : q.filename ≠ []) (hbase : Path.base d.filename = Path.base q.filename)
    (hpre : d.config.lint.javaPackagePrefix = q.javaPackagePrefix) (dirPath : Str) :
    ∀ l ∈ optionRules2, l.check dirPath [d] = some (.ok []) :=
  C58_uber2_together dirPath [d] fun d' hd' => by
    cases List.mem_singleton.1 hd'
    exact ⟨p.name, hsemi, C37_uber2 q hq es p hp d hd hf hf' hbase hpre⟩

/-- With the other groups it has the options `uber1` requires, provided that no prefix for Java
packages is configured: with one it has another `java_package` (`C37_not_prefix`). -/
theorem C37_uber1_partial (q : Params) (hq : q.fix = fixV1) (es : List Element) (p : Package)
    (hp : packagesAmong es = [p]) (d : Lint.FileDescriptor) (hd : d.elements = fixedFile q es)
    (hf : d.filename ≠ []) (hf' : q.filename ≠ []) (hbase : Path.base d.filename = Path.base q.filename)
    (hpre : q.javaPackagePrefix = []) : Options1 d p.name := by
  have hn : q.fix ≠ fixNone := by rw [hq]; decide
  refine ⟨hf, by rw [packages_eq, hd, fixed_packages, hp]; rfl, ?_, ?_, ?_, ?_⟩
  · exact declares_fixed hn hp hd (l := .str (Protostrs.goPackage p.name)) rfl (by decide) (by
      unfold managedOptions; simp [withValue_name, hq, show ¬ fixV1 = fixV2 by decide])
  · exact declares_fixed hn hp hd (l := .plain s%"true") rfl (by decide) (by
      unfold managedOptions; simp [withValue_name, hq, show ¬ fixV1 = fixV2 by decide])
  · rw [outer_eq hf hf' hbase]
    exact declares_fixed hn hp hd (l := .str (Protostrs.javaOuterClassname q.filename)) rfl (by decide) (by
      unfold managedOptions; simp [withValue_name, hq, show ¬ fixV1 = fixV2 by decide])
  · exact declares_fixed hn hp hd (l := .str (Protostrs.javaPackage p.name)) rfl (by decide) (by
      unfold managedOptions
      have : Protostrs.javaPackagePrefixOverride p.name q.javaPackagePrefix = Protostrs.javaPackage p.name := by
        unfold Protostrs.javaPackagePrefixOverride Protostrs.javaPackage
        simp [hpre]
      rw [this]
      simp [withValue_name, hq, show ¬ fixV1 = fixV2 by decide])

theorem C37_uber1_silent_partial (q : Params) (hq : q.fix = fixV1) (es : List Element) (p : Package)
    (hp : packagesAmong es = [p]) (hsemi : ';' ∉ p.name) (d : Lint.FileDescriptor)
    (hd : d.elements = fixedFile q es)
    (hf : d.filename ≠ []) (hf' : q.filename ≠ []) (hbase : Path.base d.filename = Path.base q.filename)
    (hpre : q.javaPackagePrefix = []) (dirPath : Str) :
    ∀ l ∈ optionRules1, l.check dirPath [d] = some (.ok []) :=
  C58_uber1_together dirPath [d] fun d' hd' => by
    cases List.mem_singleton.1 hd'
    exact ⟨p.name, hsemi, C37_uber1_partial q hq es p hp d hd hf hf' hbase hpre⟩

/-- Options other than the seven are kept as they are, and so are all other declarations. -/
theorem C37_kept (q : Params) (hq : q.fix = fixV1 ∨ q.fix = fixV2) (es : List Element) :
    (optionsAmong (fixedFile q es)).filter (fun o => o.name ∉ managedNames) =
      (optionsAmong es).filter (fun o => o.name ∉ managedNames) ∧
    (fixedFile q es).filter (fun | .option _ => false | _ => true) =
      es.filter (fun | .option _ => false | _ => true) := by
  have hn : q.fix ≠ fixNone := fun h => by rcases hq with h' | h' <;> rw [h] at h' <;> cases h'
  constructor
  · rw [fixed_options]
    unfold optionsOf
    rw [if_neg hn, List.filter_append, List.filter_filter]
    refine (congrArg (_ ++ ·) (List.filter_eq_nil_iff.2 fun o ho h => ?_)).trans (by simp)
    refine of_decide_eq_true h ?_
    split at ho
    · cases ho
    · unfold managedOptions at ho
      simp only [List.mem_append, List.mem_cons, List.not_mem_nil, or_false] at ho
      rcases ho with (rfl | rfl | rfl | rfl) | ho
      · rw [withValue_name]; decide
      · rw [withValue_name]; decide
      · rw [withValue_name]; decide
      · rw [withValue_name]; decide
      · split at ho
        · simp only [List.mem_cons, List.not_mem_nil, or_false] at ho
          rcases ho with rfl | rfl | rfl <;> rw [withValue_name] <;> decide
        · cases ho
  · show (fixedFile q es).filter noOption = es.filter noOption
    rw [fixedFile_eq, List.filter_append, List.filter_append, List.filter_filter]
    have h1 : ((optionsOf q es).map Element.option).filter noOption = [] := by
      rw [List.filter_eq_nil_iff]
      intro e he
      obtain ⟨o, _, rfl⟩ := List.mem_map.1 he
      simp [noOption]
    rw [h1, List.nil_append]
    simp only [Bool.and_self]
    rw [← List.filter_append, List.takeWhile_append_dropWhile]

/-- A managed option that was there keeps its comments; of several the last one stays. -/
theorem C37_comments (q : Params) (hq : q.fix = fixV2) (es : List Element) (p : Package)
    (hp : (packagesAmong es).head? = some p) (name : Str) (hname : name ∈ managedNames) (o : Opt)
    (h : ((optionsAmong es).filter fun o => o.name = name).getLast? = some o) :
    ∃ value, (optionsAmong (fixedFile q es)).filter (fun o => o.name = name) = [{ o with constant := value }] := by
  have hn : q.fix ≠ fixNone := by rw [hq]; decide
  obtain ⟨ps, hps⟩ : ∃ ps, packagesAmong es = p :: ps := by
    cases hh : packagesAmong es with
    | nil => rw [hh] at hp; cases hp
    | cons x xs => rw [hh] at hp; cases hp; exact ⟨xs, rfl⟩
  have hw : ∀ value, withValue name (optionsAmong es) value = { o with constant := value } := by
    intro value
    unfold withValue lastOption
    rw [h]
  rw [fixed_options, managed_filter q es hn hps hname]
  have : ∃ value, (managedOptions q p.name (optionsAmong es)).filter (fun o => o.name = name) =
      [withValue name (optionsAmong es) value] := by
    unfold managedNames at hname
    simp only [List.mem_cons, List.not_mem_nil, or_false] at hname
    rcases hname with rfl | rfl | rfl | rfl | rfl | rfl | rfl
    · exact ⟨.str (Protostrs.csharpNamespace p.name), by unfold managedOptions; simp [withValue_name, hq]⟩
    · exact ⟨.str (Protostrs.goPackageV2 p.name), by unfold managedOptions; simp [withValue_name, hq]⟩
    · exact ⟨.plain s%"true", by unfold managedOptions; simp [withValue_name, hq]⟩
    · exact ⟨.str (Protostrs.javaOuterClassname q.filename), by unfold managedOptions; simp [withValue_name, hq]⟩
    · exact ⟨.str (Protostrs.javaPackagePrefixOverride p.name q.javaPackagePrefix), by
        unfold managedOptions; simp [withValue_name, hq]⟩
    · exact ⟨.str (Protostrs.objcClassPrefix p.name), by unfold managedOptions; simp [withValue_name, hq]⟩
    · exact ⟨.str (Protostrs.phpNamespace p.name), by unfold managedOptions; simp [withValue_name, hq]⟩
  obtain ⟨value, hv⟩ := this
  exact ⟨value, by rw [hv, hw]⟩

/-! ## What does not hold -/

/-- The parameters of `format --fix` for a group other than `uber2`. -/
def fixing1 : Params := ⟨s%"/a/foo_bar.proto", fixV1, [], []⟩

/-- A file with an option that `uber1` has no rule about. -/
def csharp : List Element :=
  [.syntax { value := s%"proto3" }, .package { name := s%"uber.trip.v1" },
   .option { name := s%"csharp_namespace", constant := .str s%"Mine" },
   .option { name := s%"cc_enable_arenas", constant := .plain s%"true" }]

/-- Violation: with the other groups `--fix` drops `csharp_namespace`, `objc_class_prefix` and
`php_namespace`, although it does not manage them there. -/
theorem C37_not_kept : ∃ o ∈ optionsAmong csharp,
    o.name = s%"csharp_namespace" ∧ ∀ o' ∈ optionsAmong (fixedFile fixing1 csharp), o'.name ≠ o.name :=
  ⟨_, List.mem_cons_self, rfl, by decide +kernel⟩

/-- In general: none of the three is left. -/
theorem C37_dropped (q : Params) (hq : q.fix = fixV1) (es : List Element)
    (name : Str) (hn : name ∈ [s%"csharp_namespace", s%"objc_class_prefix", s%"php_namespace"]) :
    ∀ o ∈ optionsAmong (fixedFile q es), o.name ≠ name := by
  have hne : q.fix ≠ fixNone := by rw [hq]; decide
  intro o ho e
  rw [fixed_options] at ho
  unfold optionsOf at ho
  rw [if_neg hne] at ho
  rcases List.mem_append.1 ho with ho | ho
  · refine of_decide_eq_true (List.mem_filter.1 ho).2 ?_
    rw [e]
    simp only [List.mem_cons, List.not_mem_nil, or_false] at hn
    rcases hn with rfl | rfl | rfl <;> decide
  · split at ho
    · cases ho
    · unfold managedOptions at ho
      rw [hq] at ho
      simp only [List.mem_append, List.mem_cons, List.not_mem_nil, or_false] at ho
      have hv : o.name ∈ [s%"go_package", s%"java_multiple_files", s%"java_outer_classname", s%"java_package"] := by
        rcases ho with (rfl | rfl | rfl | rfl) | ho
        · rw [withValue_name]; decide
        · rw [withValue_name]; decide
        · rw [withValue_name]; decide
        · rw [withValue_name]; decide
        · exact absurd ho (by simp [fixV1, fixV2])
      rw [e] at hv
      simp only [List.mem_cons, List.not_mem_nil, or_false] at hn
      rcases hn with rfl | rfl | rfl <;> revert hv <;> decide

/-- Without a package `--fix` drops all seven options. -/
theorem C37_no_package (q : Params) (hq : q.fix = fixV1 ∨ q.fix = fixV2) (es : List Element)
    (hp : packagesAmong es = []) :
    optionsAmong (fixedFile q es) = (optionsAmong es).filter fun o => o.name ∉ managedNames := by
  have hn : q.fix ≠ fixNone := fun h => by rcases hq with h' | h' <;> rw [h] at h' <;> cases h'
  rw [fixed_options]
  unfold optionsOf
  rw [if_neg hn, hp]
  exact List.append_nil _

/-- A file before `--fix`. -/
def before : List Element := [.syntax { value := s%"proto3" }, .package { name := s%"uber.trip.v1" }]

/-- The parameters if a prefix for Java packages is configured. -/
def fixingPrefix : Params := ⟨s%"/a/foo_bar.proto", fixV1, [], s%"org"⟩

/-- Violation: with group `uber1` and a prefix for Java packages, the rule about `java_package`
reports what `--fix` has written. -/
theorem C37_not_prefix :
    Lint.fileOptionsEqualJavaPackageComPrefixLinter ∈ optionRules1 ∧
    ∀ dirPath, Lint.fileOptionsEqualJavaPackageComPrefixLinter.check dirPath
        [Sample.file s%"/a/foo_bar.proto" (fixedFile fixingPrefix before)] ≠ some (.ok []) := by
  refine ⟨by unfold optionRules1; simp, fun dirPath h => ?_⟩
  obtain ⟨fs, hc, hp, _⟩ := C58_prescribed
    (Lint.fileOptionsEqualJavaPackageComPrefixLinter, s%"java_package", fun _ => Protostrs.javaPackage)
    (by unfold prescribing; simp) dirPath
    [Sample.file s%"/a/foo_bar.proto" (fixedFile fixingPrefix before)] (by
      intro d hd; cases List.mem_singleton.1 hd; decide)
  have hc : Lint.fileOptionsEqualJavaPackageComPrefixLinter.check dirPath
        [Sample.file s%"/a/foo_bar.proto" (fixedFile fixingPrefix before)] = some (.ok fs) := hc
  rw [h] at hc
  cases hc
  have hp := hp.length_eq
  revert hp
  decide +kernel

/-! ## The theorems are about something -/

/-- The parameters of `format --fix` for `uber2`. -/
def fixing2 : Params := ⟨s%"/a/foo_bar.proto", fixV2, s%"// Copyright", s%"org"⟩

/-- A file with old options. -/
def outdated : List Element :=
  [.comment { lines := [s%" Old"], position := {} }, .syntax { value := s%"proto3" },
   .package { name := s%"uber.trip.v1" },
   .option { name := s%"java_package", constant := .str s%"x.y" },
   .option { name := s%"cc_enable_arenas", constant := .plain s%"true" }]

example : packagesAmong outdated = [{ name := s%"uber.trip.v1" }] ∧ Trimmed fixing2.fileHeader ∧
    packagesAmong outdated ≠ [] := by
  refine ⟨rfl, ⟨?_, ?_⟩, by decide⟩ <;> decide +kernel

example : (transform .stable fixing2 outdated).toOption = some
    (s%"// Copyright\n\nsyntax = \"proto3\";\n\npackage uber.trip.v1;\n\noption cc_enable_arenas = true;\noption csharp_namespace = \"Uber.Trip.V1\";\noption go_package = \"tripv1\";\noption java_multiple_files = true;\noption java_outer_classname = \"FooBarProto\";\noption java_package = \"org.uber.trip.v1\";\noption objc_class_prefix = \"UTX\";\noption php_namespace = \"Uber\\\\Trip\\\\V1\";\n", []) := by
  decide +kernel

end Verif.Props
