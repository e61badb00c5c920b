import Verif.Props.Init
import Verif.Props.Settings
import Verif.Proof.Split
import Verif.Proof.Walk
import Verif.Spec.CfgInit
import Verif.Spec.List

/-!
# What the generated configuration says (C84)
-/

namespace Verif.Props

open Verif Verif.Spec Str Path File CfgInit Settings

theorem htmlEscape_plain {v : Str} (hv : ∀ c ∈ v, c.isAlphanum = true ∨ c = '.' ∨ c = '-') :
    htmlEscape v = v := by
  unfold htmlEscape
  induction v with
  | nil => rfl
  | cons c v ih =>
    rw [List.flatMap_cons, ih fun x hx => hv x (List.mem_cons_of_mem _ hx)]
    have hc := hv c (List.mem_cons_self ..)
    have : ∀ d : Char, d.isAlphanum = false → d ≠ '.' → d ≠ '-' → c ≠ d := by
      rintro d h1 h2 h3 rfl
      rcases hc with h | h | h
      · rw [h1] at h; cases h
      · exact h2 h
      · exact h3 h
    rw [if_neg (this _ (by decide) (by decide) (by decide)), if_neg (this _ (by decide) (by decide) (by decide)),
      if_neg (this _ (by decide) (by decide) (by decide)), if_neg (this _ (by decide) (by decide) (by decide)),
      if_neg (this _ (by decide) (by decide) (by decide)), if_neg (this _ (by decide) (by decide) (by decide)),
      if_neg (this _ (by decide) (by decide) (by decide))]
    rfl

/-- The lines of a template with the values put in. -/
def rendered (tmpl : List (List Part)) (v version : Str) : List Str :=
  tmpl.map fun line => line.flatMap (Part.render v version)

/-- The texts of the templates have no line breaks and are printable. -/
def textsOK (tmpl : List (List Part)) : Bool :=
  tmpl.all fun line => line.all fun p =>
    match p with
    | .text t => t.all fun c => decide (c ≠ '\n' ∧ ' ' ≤ c ∧ c ≤ '~')
    | _ => true

theorem textsOK_document : textsOK documentTmpl = true := by decide +kernel
theorem textsOK_base : textsOK baseTmpl = true := by decide +kernel

theorem rendered_chars {tmpl : List (List Part)} (h : textsOK tmpl = true) {v version : Str}
    (hv : v = s%"#" ∨ v = []) (hver : PlainValue version) :
    ∀ line ∈ rendered tmpl v version, ∀ c ∈ line, c ≠ '\n' ∧ ' ' ≤ c ∧ c ≤ '~' := by
  have hp : ∀ c ∈ version, c ≠ '\n' ∧ ' ' ≤ c ∧ c ≤ '~' := by
    intro c hc
    rcases hver.2 c hc with h | rfl | rfl
    · have h' := h
      simp only [Char.isAlphanum, Char.isAlpha, Char.isUpper, Char.isLower, Char.isDigit, Bool.or_eq_true,
        Bool.and_eq_true, decide_eq_true_eq] at h
      refine ⟨by rintro rfl; exact absurd h' (by decide), ?_, ?_⟩
      · show (' ' : Char).val ≤ c.val
        have : (' ' : Char).val = 32 := rfl
        rw [this]
        grind
      · show c.val ≤ ('~' : Char).val
        have : ('~' : Char).val = 126 := rfl
        rw [this]
        grind
    · decide
    · decide
  intro line hl c hc
  unfold rendered at hl
  obtain ⟨parts, hm, rfl⟩ := List.mem_map.1 hl
  obtain ⟨p, hpm, hc⟩ := List.mem_flatMap.1 hc
  unfold textsOK at h
  have := List.all_eq_true.1 (List.all_eq_true.1 h parts hm) p hpm
  cases p with
  | text t => exact of_decide_eq_true (List.all_eq_true.1 this c hc)
  | v =>
    rcases hv with rfl | rfl
    · have : c = '#' := by simpa [Part.render, htmlEscape] using hc
      subst this
      decide
    · simp [Part.render, htmlEscape] at hc
  | version =>
    simp only [Part.render, htmlEscape_plain hver.2] at hc
    exact hp c hc

theorem execute_lines {tmpl : List (List Part)} (h : textsOK tmpl = true) (hne : tmpl ≠ []) {v version : Str}
    (hv : v = s%"#" ∨ v = []) (hver : PlainValue version) :
    splitChar '\n' (execute tmpl v version) = rendered tmpl v version := by
  unfold execute
  refine splitChar_join '\n' (by simpa using hne) ?_
  intro w hw hc
  exact (rendered_chars h hv hver w hw _ hc).1 rfl

theorem rendered_document (version : Str) :
    (rendered documentTmpl s%"#" version).filter (fun line => !isCommentLine line) =
      [s%"protoc:", s%"  version: " ++ htmlEscape version, s%"lint:", s%"  group: uber2"] := by
  have : (rendered documentTmpl s%"#" version).filter (fun line => !isCommentLine line) =
      [s%"protoc:", s%"  version: " ++ (htmlEscape version ++ []), s%"lint:", s%"  group: uber2"] := rfl
  rw [this, List.append_nil]

theorem rendered_base (version : Str) :
    (rendered baseTmpl s%"#" version).filter (fun line => !isCommentLine line) =
      [s%"protoc:", s%"  version: " ++ htmlEscape version, s%"lint:", s%"  group: uber2"] := by
  have : (rendered baseTmpl s%"#" version).filter (fun line => !isCommentLine line) =
      [s%"protoc:", s%"  version: " ++ (htmlEscape version ++ []), s%"lint:", s%"  group: uber2"] := rfl
  rw [this, List.append_nil]

/-- C84: with or without the documentation, and whatever the version, the generated text sets the
version of protoc and the lint group and nothing else. -/
theorem C84_settings (version : Str) (hv : PlainValue version) (document : Bool) :
    effective (generate version false document) =
      [s%"protoc:", s%"  version: " ++ version, s%"lint:", s%"  group: uber2"] := by
  unfold effective generate
  cases document with
  | true =>
    simp only [Bool.false_eq_true, if_false, Bool.not_false, if_true]
    rw [execute_lines textsOK_document (by simp [documentTmpl, documentProtoc]) (.inl rfl) hv, rendered_document,
      htmlEscape_plain hv.2]
  | false =>
    simp only [Bool.false_eq_true, if_false, Bool.not_false, if_true]
    rw [execute_lines textsOK_base (by simp [baseTmpl]) (.inl rfl) hv, rendered_base, htmlEscape_plain hv.2]

/-- A line of the template has at most one marker, which only spaces precede. -/
def markerOK (line : List Part) : Bool :=
  (line.all fun p => match p with | .v => false | _ => true) ||
    match line with
    | .v :: rest => rest.all fun p => match p with | .v => false | _ => true
    | .text t :: .v :: rest => (t.all (· = ' ')) && rest.all fun p => match p with | .v => false | _ => true
    | _ => false

theorem markers_document : documentTmpl.all markerOK = true := by decide +kernel

theorem render_no_marker {line : List Part} (h : (line.all fun p => match p with | .v => false | _ => true) = true)
    (v v' version : Str) : line.flatMap (Part.render v version) = line.flatMap (Part.render v' version) := by
  induction line with
  | nil => rfl
  | cons p line ih =>
    rw [List.all_cons, Bool.and_eq_true] at h
    rw [List.flatMap_cons, List.flatMap_cons, ih h.2]
    cases p with
    | v => cases h.1
    | text t => rfl
    | version => rfl

theorem uncommented_line {line : List Part} (h : markerOK line = true) (version : Str) :
    Uncommented (line.flatMap (Part.render s%"#" version)) (line.flatMap (Part.render [] version)) := by
  unfold markerOK at h
  rw [Bool.or_eq_true] at h
  rcases h with h | h
  · exact .inl (render_no_marker h _ _ _)
  · split at h
    · rename_i rest
      refine .inr ⟨[], rest.flatMap (Part.render [] version), by simp, ?_, ?_⟩
      · rw [List.flatMap_cons, render_no_marker h s%"#" []]
        rfl
      · rw [List.flatMap_cons]
        rfl
    · rename_i t rest
      rw [Bool.and_eq_true] at h
      refine .inr ⟨t, rest.flatMap (Part.render [] version), ?_, ?_, ?_⟩
      · intro c hc
        simpa using List.all_eq_true.1 h.1 c hc
      · rw [List.flatMap_cons, List.flatMap_cons, render_no_marker h.2 s%"#" []]
        simp [Part.render, htmlEscape]
      · rw [List.flatMap_cons, List.flatMap_cons]
        simp [Part.render, htmlEscape]
    · cases h

theorem pointwise_map {α β γ : Type} {R : β → γ → Prop} {f : α → β} {g : α → γ} {l : List α}
    (h : ∀ x ∈ l, R (f x) (g x)) : Pointwise R (l.map f) (l.map g) := by
  induction l with
  | nil => exact .nil
  | cons x l ih =>
    exact .cons (h x (List.mem_cons_self ..)) (ih fun y hy => h y (List.mem_cons_of_mem _ hy))

/-- C84: uncommenting gives the documented text, line by line, with the markers of the examples
removed; it implies the documentation. -/
theorem C84_uncommented (version : Str) (hv : PlainValue version) (document : Bool) :
    Pointwise Uncommented (splitChar '\n' (generate version false true))
      (splitChar '\n' (generate version true document)) := by
  unfold generate
  simp only [Bool.false_eq_true, if_false, Bool.not_false, if_true, Bool.not_true]
  rw [execute_lines textsOK_document (by simp [documentTmpl, documentProtoc]) (.inl rfl) hv,
    execute_lines textsOK_document (by simp [documentTmpl, documentProtoc]) (.inr rfl) hv]
  unfold rendered
  exact pointwise_map fun line hl => uncommented_line (List.all_eq_true.1 markers_document line hl) version

set_option maxRecDepth 100000 in
theorem rendered_uncommented (version : Str) (hv : version ≠ []) :
    (rendered documentTmpl [] version).filter (fun line => !isCommentLine line) =
      yamlLines (exampleConfig (htmlEscape version ++ [])) := by
  have hn : htmlEscape version ++ [] ≠ [] := by
    cases version with
    | nil => exact absurd rfl hv
    | cons c v =>
      unfold htmlEscape
      rw [List.flatMap_cons]
      repeat' split
      all_goals simp
  have hy : yamlText s%"  " s%"version" (exampleConfig (htmlEscape version ++ [])).version =
      [s%"  version: " ++ (htmlEscape version ++ [])] := if_neg hn
  unfold yamlLines
  rw [hy]
  rfl

/-- C84: with the examples uncommented, the text sets what the examples say, and every example is a
setting that there is. -/
theorem C84_examples (version : Str) (hv : PlainValue version) (document : Bool) :
    effective (generate version true document) = yamlLines (exampleConfig version) := by
  unfold generate effective
  simp only [if_true, Bool.not_true, Bool.false_eq_true, if_false]
  rw [execute_lines textsOK_document (by simp [documentTmpl, documentProtoc]) (.inr rfl) hv,
    rendered_uncommented version hv.1, List.append_nil, htmlEscape_plain hv.2]

/-- C84: the examples are not meant to be used together, as the text says: a header is given twice. -/
theorem C84_examples_refused (s : SortSlice) (h : Settings.Host) (develMode : Bool) (version dir : Str)
    (c : Config) : externalConfigToConfig s h develMode (exampleConfig version) dir ≠ .ok c := by
  intro hc
  unfold externalConfigToConfig at hc
  have hf : fileHeaderOf h (exampleConfig version) dir =
      .error s%"must only specify either file header path or content" := rfl
  rw [hf] at hc
  revert hc
  dsimp only
  repeat' split
  all_goals exact fun hc => nomatch hc

/-- C84: with one header only they are refused still, since a rule is both added and removed. -/
theorem C84_examples_refused_still (s : SortSlice) (h : Settings.Host) (develMode : Bool)
    (version dir : Str) (c : Config) :
    externalConfigToConfig s h develMode { exampleConfig version with fileHeaderPath := [] } dir ≠ .ok c ∧
      externalConfigToConfig s h develMode { exampleConfig version with fileHeaderContent := [] } dir ≠
        .ok c := by
  have hi : (Strs.intersection
      (Strs.sortUniqModify [s%"ENUM_NAMES_CAMEL_CASE", s%"ENUM_NAMES_CAPITALIZED"] (some toUpper))
      (Strs.sortUniqModify [s%"ENUM_NAMES_CAMEL_CASE"] (some toUpper))).length > 0 := by
    decide +kernel
  have key : ∀ (e : ExternalConfig) a b d f,
      e.add = [s%"ENUM_NAMES_CAMEL_CASE", s%"ENUM_NAMES_CAPITALIZED"] →
      e.remove = [s%"ENUM_NAMES_CAMEL_CASE"] →
      finishConfig develMode e dir a b d f ≠ .ok c := by
    intro e a b d f h1 h2
    unfold finishConfig
    split
    · exact fun hc => nomatch hc
    · dsimp only
      split
      · exact fun hc => nomatch hc
      · have : (Strs.intersection (buildConfig e dir a b d f).lint.includeIDs
            (buildConfig e dir a b d f).lint.excludeIDs).length > 0 := by
          show (Strs.intersection (Strs.sortUniqModify e.add (some toUpper))
            (Strs.sortUniqModify e.remove (some toUpper))).length > 0
          rw [h1, h2]
          exact hi
        rw [if_pos this]
        exact fun hc => nomatch hc
  constructor
  all_goals
    unfold externalConfigToConfig
    repeat' split
    all_goals first | exact key _ _ _ _ _ rfl rfl | exact fun hc => nomatch hc

theorem locate_after {d : Str} (hd : IsAbsPath d) {x : Str} (hx : isAbs x = false)
    (hc : Components (splitChar '/' x)) : ∃ t, t ≠ [] ∧ locate d x = d ++ t := by
  obtain ⟨cs, hcs, rfl⟩ := hd
  have hne : splitChar '/' x ≠ [] := splitChar_ne_nil _ _
  unfold locate
  rw [hx, if_neg (by simp), joinPath_absPath hcs, foldl_cleanStep hc, List.reverse_append,
    List.reverse_reverse, List.reverse_reverse]
  rw [absPath_ne_nil (by simp [hne]), List.flatMap_append]
  by_cases e : cs = []
  · subst e
    cases h : splitChar '/' x with
    | nil => exact absurd h hne
    | cons c ys =>
      have hc0 : c ≠ [] := by
        have := hc c (by rw [h]; exact List.mem_cons_self ..)
        exact this.1
      exact ⟨c ++ ys.flatMap fun c => '/' :: c, by simp [hc0], rfl⟩
  · refine ⟨(splitChar '/' x).flatMap fun c => '/' :: c, ?_, ?_⟩
    · cases h : splitChar '/' x with
      | nil => exact absurd h hne
      | cons c ys => simp
    · rw [absPath_ne_nil e]

/-- C84: with one header and without the removed rule the examples are accepted together, in every
directory. -/
theorem C84_examples_accepted (s : SortSlice) (h : Settings.Host) (develMode : Bool)
    (version dir : Str) (hd : IsAbsPath dir) :
    ∃ c, externalConfigToConfig s h develMode
      { exampleConfig version with fileHeaderPath := [], remove := [] } dir = .ok c := by
  rw [C50_accepted_iff s h develMode _ _ hd]
  refine ⟨?_, ?_, ?_, ⟨_, .content rfl (by simp [exampleConfig]), ?_⟩, fun h => (nomatch h), ?_⟩
  · intro x hx _
    have : x = s%"path/to/a" ∨ x = s%"path/to/b/file.proto" := by simpa [exampleConfig] using hx
    rcases this with rfl | rfl
    · exact locate_after hd (by decide) (by unfold Components Component; decide)
    · exact locate_after hd (by decide) (by unfold Components Component; decide)
  · intro p hp
    have : p ∈ examplePlugins := hp
    simp only [examplePlugins, List.mem_cons, List.not_mem_nil, or_false] at this
    have hname : ∀ (n : Str), hasPrefix n s%"protoc-gen-" = false → ∀ rest, n ≠ s%"protoc-gen-" ++ rest := by
      rintro n hn rest rfl
      simp [hasPrefix] at hn
    rcases this with rfl | rfl | rfl | rfl | rfl
    · exact ⟨⟨.gogo, .inr (.inr ⟨rfl, by decide⟩), fun _ => by simp [exampleConfig]⟩, by simp,
        fun _ e => (nomatch e), fun e => by simp at e, hname _ (by decide)⟩
    · exact ⟨⟨.gogo, .inr (.inr ⟨rfl, by decide⟩), fun _ => by simp [exampleConfig]⟩, by simp,
        fun _ e => (nomatch e), fun e => by simp at e, hname _ (by decide)⟩
    · exact ⟨⟨.go, .inr (.inl ⟨rfl, by decide⟩), fun _ => by simp [exampleConfig]⟩, by simp,
        fun _ e => (nomatch e), fun e => by simp at e, hname _ (by decide)⟩
    · exact ⟨⟨.none, .inl ⟨rfl, rfl⟩, fun e => absurd rfl e⟩, by simp,
        fun _ e => by simp at e, fun e => by simp at e, hname _ (by decide)⟩
    · exact ⟨⟨.none, .inl ⟨rfl, rfl⟩, fun e => absurd rfl e⟩, by simp,
        fun _ e => by simp at e, fun _ => rfl, hname _ (by decide)⟩
  · intro x hx
    have : x = (s%".", s%"bar") ∨ x = (s%"idl/code.uber", s%"uber") := by simpa [exampleConfig] using hx
    rcases this with rfl | rfl <;> exact ⟨by decide, by decide, by decide⟩
  · intro _ t ht
    injection ht with ht
    subst ht
    exact ⟨'/', by simp [exampleConfig], by decide⟩
  · intro a _ r hr
    exact absurd hr (by simp)

theorem printable_generate (version : Str) (hv : PlainValue version) (document : Bool) :
    Printable (generate version false document) := by
  have key : ∀ tmpl, textsOK tmpl = true → Printable (execute tmpl s%"#" version) := by
    intro tmpl ht c hc
    unfold execute at hc
    have hall := rendered_chars ht (.inl rfl) hv
    unfold rendered at hall
    revert hc hall
    generalize (tmpl.map fun line => line.flatMap (Part.render s%"#" version)) = ls
    intro hc hall
    induction ls with
    | nil => cases hc
    | cons l ls ih =>
      cases ls with
      | nil => exact .inr (hall l (by simp) c hc).2
      | cons l' ls =>
        replace hc : c ∈ l ++ s%"\n" ++ join s%"\n" (l' :: ls) := hc
        simp only [List.mem_append] at hc
        rcases hc with (hc | hc) | hc
        · exact .inr (hall l (by simp) c hc).2
        · exact .inl (List.mem_singleton.1 hc)
        · exact ih hc fun x hx => hall x (List.mem_cons_of_mem _ hx)
  unfold generate
  cases document with
  | true => exact key _ textsOK_document
  | false => exact key _ textsOK_base

theorem ext_yaml (q : Str) : Path.ext (q ++ s%".yaml") = s%".yaml" := by
  unfold Path.ext
  have hrev : (q ++ s%".yaml").reverse = s%"lmay." ++ q.reverse := by simp
  rw [hrev, takeWhile_append_of_all (by decide)]
  have h1 : (s%"lmay." ++ q.reverse.takeWhile (· ≠ '/')).dropWhile (· ≠ '.') =
      '.' :: q.reverse.takeWhile (· ≠ '/') := by simp
  have h2 : (s%"lmay." ++ q.reverse.takeWhile (· ≠ '/')).takeWhile (· ≠ '.') = s%"lmay" := by simp
  dsimp only
  rw [h1, h2]
  rfl

/-- C84: read back, the generated text gives the configuration that there is without a file, but
with the version and the lint group uber2. -/
theorem C84_config (s : SortSlice) (h : Settings.Host) (hr : ReadsSimple h) (develMode : Bool)
    (version : Str) (hv : PlainValue version) (document : Bool) (dir : Str) (hd : IsAbsPath dir)
    (hfile : h.readFile (Path.joinPath [dir, s%"prototool.yaml"]) = .ok (generate version false document)) :
    ∃ default, externalConfigToConfig s h develMode {} dir = .ok default ∧
      getConfig s h develMode (Path.joinPath [dir, s%"prototool.yaml"]) = .ok
        { default with
          compile := { default.compile with protobufVersion := version }
          lint := { default.lint with group := s%"uber2" } } := by
  obtain ⟨cs, hc, rfl⟩ := hd
  have hcs : Components (cs ++ [s%"prototool.yaml"]) := by
    rw [Path.components_append, Path.components_single]
    exact ⟨hc, by unfold Component; decide⟩
  have hj := Path.joinPath_component hcs
  rw [hj] at hfile ⊢
  have habs : IsAbsPath (absPath (cs ++ [s%"prototool.yaml"])) := ⟨_, hcs, rfl⟩
  have hplugins : s.run (fun (a b : GenPlugin) => Str.lt a.name b.name) [] = [] :=
    (s.perm _ _).eq_nil
  refine ⟨buildConfig {} (absPath cs) [] [] [] [], ?_, ?_⟩
  · unfold externalConfigToConfig
    simp only [getExcludePrefixes, excludeLoop, genPluginsOf, createPackagesOf, hplugins]
    cases develMode <;> rfl
  · unfold getConfig
    rw [Path.isAbs_of_isAbsPath habs, Path.clean_of_isAbsPath habs, Path.dir_snoc hcs]
    simp only [Bool.not_true, Bool.false_eq_true, if_false]
    have hext : getExternalConfig h (absPath (cs ++ [s%"prototool.yaml"])) =
        .ok { version := version, lintGroup := s%"uber2" } := by
      unfold getExternalConfig
      rw [hfile]
      dsimp only
      have he := C84_settings version hv document
      have hne : generate version false document ≠ [] := by
        intro e
        rw [e] at he
        exact absurd (congrArg List.length he) (by simp [effective, splitChar, isCommentLine])
      rw [if_neg hne]
      have hx : Path.ext (absPath (cs ++ [s%"prototool.yaml"])) = s%".yaml" := by
        have : absPath (cs ++ [s%"prototool.yaml"]) =
            (cs ++ [s%"prototool"]).flatMap (fun c => '/' :: c) ++ s%".yaml" := by
          rw [absPath_ne_nil (by simp), List.flatMap_append, List.flatMap_append]
          simp
        rw [this, ext_yaml]
      rw [hx, if_neg (by decide), if_pos rfl]
      exact hr _ _ _ (printable_generate version hv document) hv ⟨by decide, by decide⟩ he
    rw [hext]
    dsimp only
    unfold externalConfigToConfig
    simp only [getExcludePrefixes, excludeLoop, genPluginsOf, createPackagesOf, hplugins]
    cases develMode <;> rfl

/-- C84: with the generated text, what `config init` leaves in the file is a configuration that the
other commands read so. -/
theorem C84_init (h : Exec.Host) (t : Exec.Tools) (version : Str) (hv : PlainValue version)
    (hg : ∀ uncomment document, t.config uncomment document = .ok (generate version uncomment document))
    (args : List Str) (document : Bool) (w w' : Exec.World)
    (hok : Exec.initCmd h t args false document w = (w', .ok ()))
    (s : SortSlice) (sh : Settings.Host) (hr : ReadsSimple sh) (develMode : Bool)
    (hd : IsAbsPath (args.headD h.workDirPath))
    (hsh : ∀ p data, w'.disk p = some data → sh.readFile p = .ok data) :
    ∃ default, externalConfigToConfig s sh develMode {} (args.headD h.workDirPath) = .ok default ∧
      getConfig s sh develMode (Path.joinPath [args.headD h.workDirPath, s%"prototool.yaml"]) = .ok
        { default with
          compile := { default.compile with protobufVersion := version }
          lint := { default.lint with group := s%"uber2" } } := by
  obtain ⟨_, data, h1, h2, _⟩ := C71_written h t args false document w w' hok
  rw [hg] at h1
  cases h1
  exact C84_config s sh hr develMode version hv document _ hd (hsh _ _ h2)

/-! ## Examples -/

/-- The version that is used. -/
example : PlainValue s%"3.11.0" := ⟨by decide, by decide⟩

/-- The plain form. -/
example : generate s%"3.11.0" false false =
    s%"protoc:\n  version: 3.11.0\nlint:\n  group: uber2\n" := by decide +kernel

/-- A line that changes when uncommented. -/
example : s%"  #allow_unused_imports: true" ∈ splitChar '\n' (generate s%"3.11.0" false true) ∧
    s%"  allow_unused_imports: true" ∈ splitChar '\n' (generate s%"3.11.0" true false) := by
  decide +kernel

/-- A version that is not plain would be changed. -/
example : generate s%"3+4" false false = s%"protoc:\n  version: 3&#43;4\nlint:\n  group: uber2\n" := by
  decide +kernel

open Classical in
/-- There is a reader as assumed. -/
noncomputable def simpleHost : Settings.Host where
  stat _ := true
  readFile p :=
    if p = s%"/w/prototool.yaml" then .ok (generate s%"3.11.0" false true) else .error s%"no such file"
  parseYAML text :=
    if h : ∃ vg : Str × Str, effective text =
        [s%"protoc:", s%"  version: " ++ vg.1, s%"lint:", s%"  group: " ++ vg.2] then
      .ok { version := h.choose.1, lintGroup := h.choose.2 }
    else .error s%"too difficult"

theorem simpleHost_reads : ReadsSimple simpleHost := by
  intro text version group _ _ _ he
  have hex : ∃ vg : Str × Str, effective text =
      [s%"protoc:", s%"  version: " ++ vg.1, s%"lint:", s%"  group: " ++ vg.2] := ⟨(version, group), he⟩
  unfold simpleHost
  simp only [dif_pos hex]
  have := he.symm.trans hex.choose_spec
  injection this with _ this
  injection this with h1 this
  injection this with _ this
  injection this with h2 _
  rw [← List.append_cancel_left h1, ← List.append_cancel_left h2]

example : ∃ c, getConfig .stable simpleHost false s%"/w/prototool.yaml" = .ok c ∧
    c.compile.protobufVersion = s%"3.11.0" ∧ c.lint.group = s%"uber2" ∧ c.gen.plugins = [] := by
  obtain ⟨d, h1, h2⟩ := C84_config .stable simpleHost simpleHost_reads false s%"3.11.0"
    ⟨by decide, by decide⟩ true s%"/w" (Exec.Sample.isAbsPath_iff.2 (by decide)) (by
      have : Path.joinPath [s%"/w", s%"prototool.yaml"] = s%"/w/prototool.yaml" := by decide
      rw [this]
      simp [simpleHost])
  exact ⟨_, h2, rfl, rfl, by cases h1; rfl⟩

end Verif.Props
