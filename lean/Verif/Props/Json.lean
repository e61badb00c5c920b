import Verif.Proof.Json
import Verif.Props.CmdLine

/-!
# JSON output can be read back (C96)

The encoder is that of Go (Verif/Go/Json.lean), the reader that of RFC 8259 (Spec/Json.lean).
-/

namespace Verif.Props

open Verif Str Exec Cmd Spec Spec.Json

/-- C96: the JSON form of a failure is one line, and reading it gives the failure. -/
theorem C96_failure (f : Text.Failure) : readFailure f.json = some f ∧ '\n' ∉ f.json :=
  ⟨readFailure_json f, nl_json f⟩

/-- The lines of failures in order say the failures. -/
theorem saysJSON_lines (fs : List Text.Failure) :
    SaysJSON ((Text.sortFailures fs).flatMap fun f => f.json ++ s%"\n") fs := by
  refine ⟨(Text.sortFailures fs).map Text.Failure.json, Text.sortFailures fs, ?_, ?_, (C18_sorted fs).1,
    (C18_sorted fs).2⟩
  · rw [← linesOf_flatMap _ (by
      intro l hl
      obtain ⟨f, _, rfl⟩ := List.mem_map.1 hl
      exact nl_json f), List.flatMap_map]
  · rw [List.map_map]
    exact List.map_congr_left fun f _ => readFailure_json f

/-- What is printed with `--json` says the failures that are shown. -/
theorem saysJSON_printed {h : Exec.Host} (hj : h.json = true) (he : ∀ f, h.toJSON f = .ok f.json)
    (m : Meta) (failures : List Text.Failure) :
    SaysJSON (printed h m failures) (failures.filter fun f => decide (Shown h m f)) := by
  have e : printed h m failures =
      (Text.sortFailures (failures.filter fun f => decide (Shown h m f))).flatMap fun f => f.json ++ s%"\n" := by
    unfold printed
    have h1 : (Text.sortFailures failures).filter (fun f => decide (Shown h m f)) =
        Text.sortFailures (failures.filter fun f => decide (Shown h m f)) := by
      refine C18_unique _ _ ((C18_sorted failures).1.filter _) ?_
      exact List.Pairwise.filter _ (C18_sorted failures).2
    rw [h1]
    congr 1
    funext f
    unfold lineOf
    rw [if_pos hj, he f]
  rw [e]
  exact saysJSON_lines _

theorem saysJSON_breakLines {h : Exec.Host} (hj : h.json = true) (he : ∀ f, h.toJSON f = .ok f.json)
    (failures : List Text.Failure) : SaysJSON (breakLines h failures) failures := by
  have e : breakLines h failures = (Text.sortFailures failures).flatMap fun f => f.json ++ s%"\n" := by
    unfold breakLines
    congr 1
    funext f
    unfold breakLine
    rw [if_pos hj, he f]
  rw [e]
  exact saysJSON_lines _

section Commands

variable {s : System} {devel : Bool} {args : List Str} {values : List (Str × Cmd.Value)} {r : Runner}
  {h : Exec.Host}

theorem invoked_json {c : Command} (i : Invoked s devel c args values r h) : h.json = isOn values s%"json" := by
  rw [i.host]

/-- C96: what `lint --json` prints says exactly the failures that the run finds and shows. -/
theorem C96_lint (usage : Usage) (i : Invoked s devel .lint args values r h) (hp : Prints h)
    (hj : isOn values s%"json" = true) (he : ∀ f, h.toJSON f = .ok f.json) (hk : ErrorFormatKnown h)
    (hf : lintOf values = {}) (m : Meta) (hm : Finds h args m) (w : World)
    (hcomp : Compiles h {} m w.disk) (failures : List Text.Failure)
    (hl : Lint.run s.lint (lintHost h w.disk) m.protoSet false = some (.ok failures)) :
    ∃ text, run s usage devel (.line .lint args values) w = ({ w with out := w.out ++ text },
        if failures = [] then .code 0 else .code 255) ∧
      SaysJSON text (failures.filter fun f => decide (Shown h m f)) :=
  ⟨_, C95_lint usage i hp ⟨hk, fun _ f => ⟨_, he f⟩⟩ hf m hm w hcomp failures hl,
    saysJSON_printed ((invoked_json i).trans hj) he m failures⟩

/-- C96: what `compile --json` prints says exactly what protoc found wrong. -/
theorem C96_compile (usage : Usage) (i : Invoked s devel .compile args values r h)
    (hj : isOn values s%"json" = true) (he : ∀ f, h.toJSON f = .ok f.json) (hk : ErrorFormatKnown h)
    (hd : isOn values s%"dry-run" = false) (hp : Prints h) (t : Toolchain) (u : Uses h t)
    (m : Meta) (hm : Finds h args m) (w : World) (cmds : List Protoc.CmdMeta)
    (hcmds : CommandsOf t {} w.disk m.protoSet cmds)
    (ht : ∀ cmd ∈ cmds, Tells m.protoSet.config.compile.allowUnusedImports (t.protoc w.disk cmd))
    (hn : ∃ cmd ∈ cmds, ¬ Silent m.protoSet.config.compile.allowUnusedImports (t.protoc w.disk cmd)) :
    ∃ text, run s usage devel (.line .compile args values) w =
        ({ w with out := w.out ++ text }, .code 255) ∧
      SaysJSON text ((cmds.flatMap fun cmd => failuresOf cmd (t.protoc w.disk cmd)).filter
        fun f => decide (Shown h m f)) :=
  ⟨_, C95_failures usage i hd hp ⟨hk, fun _ f => ⟨_, he f⟩⟩ t u m hm w cmds hcmds ht hn,
    saysJSON_printed ((invoked_json i).trans hj) he m _⟩

/-- C96: what `break check --json` prints says exactly what the comparison finds. -/
theorem C96_break (usage : Usage) (i : Invoked s devel .breakCheck args values r h)
    (hp : Prints h) (hj : isOn values s%"json" = true) (he : ∀ f, h.toJSON f = .ok f.json)
    (hb : givenText values s%"git-branch" = []) (hpath : givenText values s%"descriptor-set-path" ≠ [])
    (m : Meta) (sets : List Descriptor.FileSet) (w : World)
    (hc : CompilesTo h args { doFileDescriptorSet := true } w.disk m sets) (data : Str)
    (hd : w.disk (givenText values s%"descriptor-set-path") = some data) (set : Descriptor.FileSet)
    (hdec : (s.tools r).decode data = .ok set) (failures : List Text.Failure)
    (hr : Breaking.breakCheckSets (s.tools r).srt (s.tools r).order (s.tools r).marshal
      m.protoSet.config.break_ [set] sets = .ok failures) :
    ∃ text, run s usage devel (.line .breakCheck args values) w =
        ({ w with out := w.out ++ text }, if failures = [] then .code 0 else .code 255) ∧
      SaysJSON text failures :=
  ⟨_, C95_break_descriptor_set_path usage i hp (fun _ f => ⟨_, he f⟩) hb hpath m sets w hc data hd set hdec
    failures hr, saysJSON_breakLines ((invoked_json i).trans hj) he failures⟩

/-- C96: what `version --json` prints says the versions and the platform. -/
theorem C96_version (usage : Usage) (i : Invoked s devel .version args values r h) (hp : Prints h)
    (hj : isOn values s%"json" = true) (w : World) :
    ∃ text ms, run s usage devel (.line .version args values) w = ({ w with out := w.out ++ text }, .code 0) ∧
      readObject text = some ms ∧ stringOf ms s%"version" = some s%"1.11.0-dev" ∧
      stringOf ms s%"default_protoc_version" = some s%"3.11.0" ∧
      stringOf ms s%"go_version" = some s.environ.goVersion ∧
      stringOf ms s%"goos" = some s.environ.goos ∧ stringOf ms s%"goarch" = some s.environ.goarch := by
  have hp5 := pointwise_append (pointwise_append (pointwise_append (pointwise_append
    (pointwise_string s%"version" s%"1.11.0-dev") (pointwise_string s%"default_protoc_version" s%"3.11.0"))
    (pointwise_string s%"go_version" s.environ.goVersion)) (pointwise_string s%"goos" s.environ.goos))
    (pointwise_string s%"goarch" s.environ.goarch)
  refine ⟨_, _, (C95_version usage i hp w).2 hj, readObject_encodeIndented hp5, rfl, rfl, ?_, ?_, ?_⟩
  all_goals unfold stringOf
  · rw [lookup_append_or (lookup_stringValue_ne (by decide)), lookup_append_or (lookup_stringValue_ne (by decide)),
      lookup_append_none, lookup_stringValue]
    · exact string_or_empty _
    · rfl
  · rw [lookup_append_or (lookup_stringValue_ne (by decide)), lookup_append_none, lookup_stringValue]
    · exact string_or_empty _
    · rw [lookup_append_none, lookup_stringValue_ne (by decide)]
      rfl
  · rw [lookup_append_none, lookup_stringValue]
    · exact string_or_empty _
    · rw [lookup_append_none, lookup_stringValue_ne (by decide)]
      rw [lookup_append_none, lookup_stringValue_ne (by decide)]
      rfl

end Commands

/-! ## Plain text -/

/-- The line of a failure in the default format. -/
def textLineOf (f : Text.Failure) : Str :=
  shownField f Text.fieldFilename ++ ':' :: (shownPosition f.line ++ ':' ::
    (shownPosition f.column ++ ':' :: f.message))

theorem fprintln_default (f : Text.Failure) :
    (Text.fprintln f Text.defaultFailureFields).1 = textLineOf f ++ s%"\n" := by
  have e := C17_line_shape f Text.defaultFailureFields (by
    intro x hx
    simp only [Text.defaultFailureFields, List.mem_cons, List.not_mem_nil, or_false] at hx
    unfold KnownField
    rcases hx with h | h | h | h <;> simp [h])
  dsimp only at e
  rw [e]
  obtain ⟨h1, h2, h3⟩ := C17_never_zero f
  have hpos : ∀ n, shownPosition n ≠ [] := by
    intro n
    unfold shownPosition
    split
    · decide
    · exact Text.itoa_ne_nil n
  have hs : selectedFields Text.defaultFailureFields = Text.defaultFailureFields := rfl
  have hl : shownField f Text.fieldLine = shownPosition f.line := rfl
  have hc : shownField f Text.fieldColumn = shownPosition f.column := rfl
  have hm : shownField f Text.fieldMessage = f.message := rfl
  rw [hs]
  have ht : shownTexts f Text.defaultFailureFields = [shownField f Text.fieldFilename, shownPosition f.line,
      shownPosition f.column] ++ (if f.message = [] then [] else [f.message]) := by
    unfold shownTexts Text.defaultFailureFields
    simp only [List.map_cons, List.map_nil, hl, hc, hm]
    rw [List.filter_cons_of_pos (by simpa using h3), List.filter_cons_of_pos (by simpa using hpos f.line),
      List.filter_cons_of_pos (by simpa using hpos f.column)]
    by_cases hmsg : f.message = [] <;> simp [hmsg]
  have hx : (∃ x, Text.defaultFailureFields.getLast? = some x ∧ shownField f x = []) ↔ f.message = [] := by
    constructor
    · rintro ⟨x, h, h'⟩
      cases h
      exact h'
    · intro h
      exact ⟨Text.fieldMessage, rfl, h⟩
  rw [ht]
  unfold textLineOf
  by_cases hmsg : f.message = []
  · simp [hx, hmsg, join]
  · simp [hx, hmsg, join]

theorem readTextLine_textLineOf {f : Text.Failure} (h : Plain f) :
    readTextLine (textLineOf f) = some (asShown f) ∧ '\n' ∉ textLineOf f := by
  have hfc : ':' ∉ shownField f Text.fieldFilename ∧ '\n' ∉ shownField f Text.fieldFilename := by
    have : shownField f Text.fieldFilename = if f.filename = [] then s%"<input>" else f.filename := rfl
    rw [this]
    split
    · decide
    · exact ⟨h.colon, h.filename⟩
  have hpos : ∀ n : Int, 0 ≤ n ∧ n < 2 ^ 63 → ∃ k : Nat, k < 2 ^ 63 ∧ shownPosition n = natStr k ∧
      (if n = 0 then 1 else n) = (k : Int) := by
    intro n hn
    unfold shownPosition
    by_cases h0 : n = 0
    · exact ⟨1, by decide, by rw [if_pos h0]; decide, by rw [if_pos h0]; rfl⟩
    · refine ⟨n.natAbs, by omega, ?_, ?_⟩
      · rw [if_neg h0]
        unfold itoa
        rw [if_neg (by omega)]
      · rw [if_neg h0]
        omega
  obtain ⟨kl, hl1, hl2, hl3⟩ := hpos f.line h.line
  obtain ⟨kc, hc1, hc2, hc3⟩ := hpos f.column h.column
  have hd : ∀ k c, isDigit c = false → c ∉ natStr k := fun k c hc hm => by
    rw [natStr_digits k c hm] at hc
    cases hc
  unfold textLineOf
  rw [hl2, hc2]
  constructor
  · unfold readTextLine
    rw [splitChar_append ':' hfc.1, splitChar_append ':' (hd kl ':' (by decide)),
      splitChar_append ':' (hd kc ':' (by decide))]
    dsimp only
    rw [Protoc.atoi_natStr hl1, Protoc.atoi_natStr hc1]
    have hj := join_splitChar ':' f.message
    cases hs : splitChar ':' f.message with
    | nil => exact absurd hs (splitChar_ne_nil _ _)
    | cons a as =>
      rw [hs] at hj
      dsimp only
      rw [show s%":" = [':'] from rfl, hj]
      unfold asShown
      rw [hl3, hc3]
      rfl
  · simp only [List.mem_append, List.mem_cons, not_or]
    exact ⟨hfc.2, by decide, hd kl _ (by decide), by decide, hd kc _ (by decide), by decide, h.message⟩

/-- C96: without `--json`, and with the default format, the lines can be read back if no file name has a
colon and no file name and no message has a line break. -/
theorem C96_text {h : Exec.Host} (hj : h.json = false)
    (he : h.errorFormat = [] ∨ h.errorFormat = s%"filename:line:column:message") (m : Meta)
    (failures : List Text.Failure) (hf : ∀ f ∈ failures, Plain f) :
    SaysText (printed h m failures) (failures.filter fun f => decide (Shown h m f)) := by
  have hfields : Text.parseColonSeparatedFailureFields h.errorFormat = some Text.defaultFailureFields := by
    rcases he with he | he <;> rw [he] <;> decide
  have h1 : (Text.sortFailures failures).filter (fun f => decide (Shown h m f)) =
      Text.sortFailures (failures.filter fun f => decide (Shown h m f)) :=
    C18_unique _ _ ((C18_sorted failures).1.filter _) (List.Pairwise.filter _ (C18_sorted failures).2)
  have hmem : ∀ f ∈ Text.sortFailures (failures.filter fun f => decide (Shown h m f)), Plain f := fun f hx =>
    hf f (List.mem_filter.1 ((C18_sorted _).1.mem_iff.1 hx)).1
  have e : printed h m failures =
      ((Text.sortFailures (failures.filter fun f => decide (Shown h m f))).map textLineOf).flatMap (· ++ s%"\n") := by
    unfold printed
    rw [h1, List.flatMap_map]
    congr 1
    funext f
    unfold lineOf
    rw [if_neg (by rw [hj]; decide), hfields]
    exact fprintln_default f
  refine ⟨_, _, by rw [e]; exact linesOf_flatMap _ (by
    intro l hl
    obtain ⟨f, hx, rfl⟩ := List.mem_map.1 hl
    exact (readTextLine_textLineOf (hmem f hx)).2), ?_, (C18_sorted _).1, (C18_sorted _).2⟩
  rw [List.map_map]
  exact List.map_congr_left fun f hx => (readTextLine_textLineOf (hmem f hx)).1

/-- C96: other file names make lines that mean two things; their JSON forms differ. -/
theorem C96_text_ambiguous : ∃ f g : Text.Failure, asShown f ≠ asShown g ∧
    Text.fprintln f [] = Text.fprintln g [] ∧ f.json ≠ g.json :=
  ⟨⟨s%"a:1", 2, 3, [], s%"m"⟩, ⟨s%"a", 1, 2, [], s%"3:m"⟩, by decide, by decide, by decide⟩

/-! ## Examples -/

/-- A failure with every kind of escape. -/
example : (⟨s%"a.proto", 3, 0, s%"SYNTAX_PROTO3", s%"a \"b\" <c>\n\t\\é"⟩ : Text.Failure).json =
    s%"{\"filename\":\"a.proto\",\"line\":3,\"lint_id\":\"SYNTAX_PROTO3\",\"message\":\"a \\\"b\\\" \\u003cc\\u003e\\n\\t\\\\é\"}" := by
  decide

/-- Reading goes beyond what is written: blanks, other escapes and pairs of surrogates. -/
example : readObject s%" { \"a\\/\" : -12 , \"b\" : \"\\ud83d\\ude00\\u00E9\" } " =
    some [(s%"a/", .number (-12)), (s%"b", .string s%"😀é")] := by decide
example : readObject s%"{\"a\":01}" = none ∧ readObject s%"{\"a\":1} x" = none ∧
    readObject s%"{\"a\":\"\n\"}" = none := by decide

/-- `Plain` holds of ordinary failures. -/
example : Plain ⟨s%"a/b.proto", 3, 0, s%"SYNTAX_PROTO3", s%"Syntax: wrong."⟩ :=
  ⟨by decide, by decide, by decide, by decide, by decide⟩

namespace CmdLineExample

open CmdExample Exec.Sample

/-- A host whose encoder is Go's. -/
def jsonHost : Exec.Host := { cmdHost with toJSON := fun f => .ok f.json }

/-- `lint --json` is run with it. -/
example : Invoked { system [] with host := fun _ => jsonHost } false .lint [s%"a"] [(s%"json", .bool true)]
    { runner [] with json := true }
    { jsonHost with workDirPath := s%"/w", errorFormat := s%"filename:line:column:message", json := true } where
  system := Or.inr rfl
  fitting := ⟨by decide, by
    intro p hp b hb h
    simp only [List.mem_cons, List.not_mem_nil, or_false] at hp
    rcases hp with rfl <;> cases b <;> first | trivial | exact absurd h (by decide), by decide⟩
  settings := ⟨rfl, rfl, Or.inr ⟨rfl, rfl⟩, Or.inr ⟨rfl, rfl⟩, Or.inr ⟨rfl, rfl⟩, rfl, rfl, rfl, rfl,
    Or.inr ⟨by decide, rfl⟩⟩
  host := rfl

/-- What it prints for a file with another syntax. -/
example : (run { system [] with host := fun _ => { singleHost with toJSON := fun f => .ok f.json } } usage false
      (.line .lint [s%"a"] [(s%"json", .bool true)]) singleWorld).1.out =
    s%"{\"filename\":\"a/one.proto\",\"line\":1,\"column\":1,\"lint_id\":\"SYNTAX_PROTO3\",\"message\":\"Syntax should be proto3 but was \\\"proto2\\\".\"}\n" := by
  decide +kernel

end CmdLineExample

end Verif.Props
