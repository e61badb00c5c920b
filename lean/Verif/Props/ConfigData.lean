import Verif.Proof.ConfigText
import Verif.Proof.Walk
import Verif.Proof.Settings

/-!
# A configuration in JSON (C99)
-/

namespace Verif.Props

open Verif Verif.Spec Str Path Settings
open Verif.Json (Doc)

/-! ## What is read -/

/-- C99: a text in JSON with the documented settings gives exactly these settings. -/
theorem C99_reads_partial (text : Str) (d : Doc) (ht : SaysDoc text d) (hd : configKind asDocumented d) :
    jsonUnmarshalStrict text = .ok (configOf d) := by
  unfold jsonUnmarshalStrict
  rw [JsonRead.decode_says ht]
  exact JsonStore.store_config hd

/-- C99: a text in JSON is accepted exactly if all its names are names of settings, in lower or upper
case, and all values are of the kinds of their settings. -/
theorem C99_strict_partial (text : Str) (d : Doc) (ht : SaysDoc text d) :
    (∃ c, jsonUnmarshalStrict text = .ok c) ↔ configKind anyCase d := by
  unfold jsonUnmarshalStrict
  rw [JsonRead.decode_says ht]
  exact JsonStore.accepts_config d {}

/-- C99: whatever is accepted begins with a value in JSON, which has only names of settings and
values of their kinds. -/
theorem C99_begins_partial (text : Str) (c : ExternalConfig) (h : jsonUnmarshalStrict text = .ok c) :
    ∃ d, Begins text d ∧ configKind anyCase d := by
  obtain ⟨d, hb, hs⟩ := JsonRead.decode_begins h
  exact ⟨d, hb, (JsonStore.accepts_config d {}).1 ⟨c, hs⟩⟩

/-- C99: all settings can be given in JSON. -/
theorem C99_all_partial (c : ExternalConfig) (hc : (c.extraModifiers.map (·.1)).Nodup) :
    ∃ text d, SaysDoc text d ∧ configKind asDocumented d ∧ jsonUnmarshalStrict text = .ok c := by
  obtain ⟨text, ht⟩ := JsonWrite.has_says (JsonWrite.hasText_configDoc c)
  have hk := JsonWrite.configKind_configDoc c hc
  exact ⟨text, _, ht, hk, by rw [C99_reads_partial text _ ht hk, JsonWrite.configOf_configDoc]⟩

/-! ## A text on the command line is like a file -/

theorem ext_json (q : Str) : ext (q ++ s%"/prototool.json") = s%".json" := by
  simp [ext, List.reverse_append]

theorem absPath_snoc (cs : List Str) (c : Str) : ∃ q, absPath (cs ++ [c]) = q ++ '/' :: c := by
  refine ⟨cs.flatMap fun c => '/' :: c, ?_⟩
  cases cs with
  | nil => simp [absPath]
  | cons a cs => simp [absPath]

theorem json_component : Component s%"prototool.json" := by
  refine ⟨by decide, by decide, by decide, by decide⟩

/-- C99: these are the settings of the tool. -/
theorem C99_data_partial (s : SortSlice) (h : Host) (devel : Bool) (dirPath text : Str) (d : Doc)
    (ha : isAbs dirPath = true) (ht : SaysDoc text d) (hd : configKind asDocumented d) :
    getForData s h devel dirPath text = externalConfigToConfig s h devel (configOf d) (clean dirPath) ∧
      getExcludePrefixesForData h dirPath text = getExcludePrefixes (configOf d).excludes (clean dirPath) := by
  unfold getForData getExcludePrefixesForData
  rw [ha, C99_reads_partial text d ht hd]
  exact ⟨rfl, rfl⟩

/-- C99: anything but settings is an error. -/
theorem C99_refused_partial (s : SortSlice) (h : Host) (devel : Bool) (dirPath text : Str) (d : Doc)
    (ht : SaysDoc text d) (hd : ¬ configKind anyCase d) :
    (∃ e, getForData s h devel dirPath text = .error e) ∧
      ∃ e, getExcludePrefixesForData h dirPath text = .error e := by
  have hn : ∃ e, jsonUnmarshalStrict text = .error e := by
    cases hj : jsonUnmarshalStrict text with
    | error e => exact ⟨e, rfl⟩
    | ok c => exact absurd ((C99_strict_partial text d ht).1 ⟨c, hj⟩) hd
  obtain ⟨e, hn⟩ := hn
  unfold getForData getExcludePrefixesForData
  rw [hn]
  constructor <;> split <;> exact ⟨_, rfl⟩

/-- C99: the settings are those of a `prototool.json` with the text in that directory. -/
theorem C99_data_is_file_partial (s : SortSlice) (h : Host) (devel : Bool) (dirPath text : Str)
    (hd : IsAbsPath dirPath) (ht : text ≠ [])
    (hf : h.readFile (joinPath [dirPath, s%"prototool.json"]) = .ok text) :
    getForData s h devel dirPath text = getConfig s h devel (joinPath [dirPath, s%"prototool.json"]) := by
  obtain ⟨cs, hc, rfl⟩ := hd
  have hcs : Components (cs ++ [s%"prototool.json"]) := by
    intro c hm
    rcases List.mem_append.1 hm with hm | hm
    · exact hc c hm
    · rw [List.mem_singleton.1 hm]; exact json_component
  rw [joinPath_component hcs] at hf ⊢
  unfold getForData getConfig getExternalConfig
  have hext : ext (absPath (cs ++ [s%"prototool.json"])) = s%".json" := by
    obtain ⟨q, hq⟩ := absPath_snoc cs s%"prototool.json"
    rw [hq]; exact ext_json q
  rw [isAbs_absPath, isAbs_absPath, clean_absPath hc, clean_absPath hcs, dir_snoc hcs, hf]
  simp only [hext, if_neg ht, if_true]
  rfl

/-- C99: and they are the settings of the directory if that file is the only configuration file
there. -/
theorem C99_data_is_dir_partial (s : SortSlice) (h : Host) (devel : Bool) (dirPath text : Str)
    (hd : IsAbsPath dirPath) (ht : text ≠ [])
    (hs : h.stat (joinPath [dirPath, s%"prototool.json"]) = true)
    (ho : h.stat (joinPath [dirPath, s%"prototool.yaml"]) = false)
    (hf : h.readFile (joinPath [dirPath, s%"prototool.json"]) = .ok text) :
    getForDir s h devel dirPath = some (getForData s h devel dirPath text) ∧
      getExcludePrefixesForDir h dirPath = getExcludePrefixesForData h dirPath text := by
  have hsingle : getSingleFilePathForDir h dirPath = .ok (joinPath [dirPath, s%"prototool.json"]) := by
    unfold getSingleFilePathForDir configFilenames
    simp [hs, ho]
  have hne : joinPath [dirPath, s%"prototool.json"] ≠ [] := by
    obtain ⟨ds, _, e⟩ := joinPath_isAbsPath hd s%"prototool.json"
    rw [e, absPath_eq]
    exact List.cons_ne_nil _ _
  have hclean := clean_of_isAbsPath hd
  have habs := isAbs_of_isAbsPath hd
  constructor
  · have hp : getFilePathForDirOf h dirPath = some (.ok (joinPath [dirPath, s%"prototool.json"])) := by
      unfold getFilePathForDirOf getFilePathForDir
      rw [habs, hclean]
      simp only [Bool.not_true, Bool.false_eq_true, if_false]
      unfold getFilePathGo
      rw [hsingle]
      simp only [hne, ne_eq, not_false_eq_true, if_true]
    unfold getForDir
    rw [hp]
    simp only [hne, if_false]
    rw [C99_data_is_file_partial s h devel dirPath text hd ht hf]
  · unfold getExcludePrefixesForDir getExcludePrefixesForData
    rw [habs, hclean, hsingle]
    simp only [Bool.not_true, Bool.false_eq_true, if_false, hne]
    have hjson : getExternalConfig h (joinPath [dirPath, s%"prototool.json"]) = jsonUnmarshalStrict text := by
      obtain ⟨cs, hc, rfl⟩ := hd
      have hcs : Components (cs ++ [s%"prototool.json"]) := by
        intro c hm
        rcases List.mem_append.1 hm with hm | hm
        · exact hc c hm
        · rw [List.mem_singleton.1 hm]; exact json_component
      unfold getExternalConfig
      rw [hf]
      have hext : ext (joinPath [absPath cs, s%"prototool.json"]) = s%".json" := by
        rw [joinPath_component hcs]
        obtain ⟨q, hq⟩ := absPath_snoc cs s%"prototool.json"
        rw [hq]; exact ext_json q
      simp only [hext, if_neg ht, if_true]
    rw [hjson]

/-! ## Non-vacuity -/

/-- A configuration. -/
def exText : Str := s%"{\"excludes\": [\"a\\u002fb\"],\n \"lint\": {\"rules\": {\"no_default\": true, \"add\": [\"X\", \"Y\"]}}}"

/-- What it says. -/
def exDoc : Doc := .object [(s%"excludes", .array [.string s%"a/b"]),
  (s%"lint", .object [(s%"rules", .object [(s%"no_default", .bool true),
    (s%"add", .array [.string s%"X", .string s%"Y"])])])]

/-- Non-vacuity: the settings of a configuration. -/
example : jsonUnmarshalStrict exText =
    .ok { excludes := [s%"a/b"], noDefault := true, add := [s%"X", s%"Y"] } := by rfl

/-- Non-vacuity: it has the documented settings. -/
example : configKind asDocumented exDoc ∧
    configOf exDoc = { excludes := [s%"a/b"], noDefault := true, add := [s%"X", s%"Y"] } := by
  refine ⟨?_, rfl⟩
  have ht : ∀ s, aText (.string s) := fun s => Or.inr ⟨s, rfl⟩
  refine Or.inr ⟨_, rfl, fun _ => by decide, fun m hm => ?_⟩
  simp only [List.mem_cons, List.not_mem_nil, or_false] at hm
  rcases hm with rfl | rfl
  · refine ⟨_, List.mem_cons_self, rfl, Or.inr ⟨_, rfl, fun x hx => ?_⟩⟩
    rw [List.mem_singleton.1 hx]
    exact ht _
  · refine ⟨(s%"lint", lintKind asDocumented), by simp, rfl, Or.inr ⟨_, rfl, fun _ => by decide, fun m hm => ?_⟩⟩
    rw [List.mem_singleton.1 hm]
    refine ⟨(s%"rules", _), .tail _ (.tail _ (.head _)), rfl, Or.inr ⟨_, rfl, fun _ => by decide, fun m hm => ?_⟩⟩
    simp only [List.mem_cons, List.not_mem_nil, or_false] at hm
    rcases hm with rfl | rfl
    · exact ⟨(s%"no_default", aFlag), by simp, rfl, Or.inr ⟨true, rfl⟩⟩
    · refine ⟨(s%"add", aList aText), by simp, rfl, Or.inr ⟨_, rfl, fun x hx => ?_⟩⟩
      simp only [List.mem_cons, List.not_mem_nil, or_false] at hx
      rcases hx with rfl | rfl <;> exact ht _

/-- Non-vacuity: a name that is not documented, a value of another kind, and a text that is not JSON
are errors. -/
example : (jsonUnmarshalStrict s%"{\"exclude\": []}").toOption = none ∧
    (jsonUnmarshalStrict s%"{\"excludes\": \"a\"}").toOption = none ∧
    (jsonUnmarshalStrict s%"{\"excludes\": [\"a\",]}").toOption = none := by
  refine ⟨by rfl, by rfl, by rfl⟩

/-! ## What is not strict -/

/-- C99 in full would refuse a text with anything after the value, but the rest is not looked at. -/
theorem C99_not_whole : jsonUnmarshalStrict s%"{} {\"excludes\": [\"a\"]" = .ok {} ∧
    ¬ ∃ d, SaysDoc s%"{} {\"excludes\": [\"a\"]" d := by
  refine ⟨by rfl, ?_⟩
  rintro ⟨d, h⟩
  obtain ⟨w, hw, hr⟩ := JsonRead.says_read h
  have hr' : some (Doc.object [], s%" {\"excludes\": [\"a\"]") = some (d, w) := hr
  injection hr' with hr'
  injection hr' with _ hr'
  subst hr'
  exact absurd (hw '{' (by decide)) (by decide)

/-- C99 in full would refuse a name that occurs twice, but the second list of excludes replaces the
first one, and the entry in the second list of ignores takes over the files of the first one. -/
theorem C99_not_once :
    jsonUnmarshalStrict s%"{\"excludes\": [\"a\"], \"excludes\": [\"b\"]}" = .ok { excludes := [s%"b"] } ∧
    jsonUnmarshalStrict (s%"{\"lint\": {\"ignores\": [{\"id\": \"A\", \"files\": [\"a.proto\"]}]," ++
      s%" \"ignores\": [{\"id\": \"B\"}]}}") = .ok { ignores := [(s%"B", [s%"a.proto"])] } := by
  refine ⟨by rfl, by rfl⟩

end Verif.Props
