import Verif.Proof.Says
import Verif.Proof.Replace
import Verif.Props.LintComments
import Verif.Props.LintEnums
import Verif.Props.LintFields
import Verif.Props.LintOptions
import Verif.Props.LintOther
import Verif.Props.LintPackage
import Verif.Props.LintTypes

/-!
# C88: what the rules propose

For the rules that propose something: the text of each report, and that a file in which the
proposals are followed is not reported any more. `Says` and `CleanOn` are in
Verif/Spec/LintSays.lean.
-/

namespace Verif.Props

open Verif Proto Spec Lint Str

/-- Proves what a visitor says at a node, given that its condition is the right one. -/
local macro "visitor_said" h:term : tactic =>
  `(tactic| (intro l around e; cases e <;> first | exact .nil | exact .iff ($h _) | exact .unless ($h _)))

/-! ## Names of fields -/

/-- The name with every `file_name` replaced. -/
def filenameProposal (name : Str) : Str := replaceAll name s%"file_name" s%"filename"

/-- The name with every `file_path` replaced. -/
def filepathProposal (name : Str) : Str := replaceAll name s%"file_path" s%"filepath"

theorem C88_filename : Says messageFieldNamesFilenameLinter fun d =>
    ((fields d).filter fun f => s%"file_name" <:+: f.name).map fun f =>
      (f.position, text [s%"Field name ", quote f.name, s%" should be ",
        quote (filenameProposal f.name), s%"."]) :=
  says_simple rfl rfl (by visitor_shape) (by visitor_said fun f : Field => contains_infix)

theorem C88_filepath : Says messageFieldNamesFilepathLinter fun d =>
    ((fields d).filter fun f => s%"file_path" <:+: f.name).map fun f =>
      (f.position, text [s%"Field name ", quote f.name, s%" should be ",
        quote (filepathProposal f.name), s%"."]) :=
  says_simple rfl rfl (by visitor_shape) (by visitor_said fun f : Field => contains_infix)

/-- Only the words in question are replaced. -/
theorem C88_replaced (name : Str) :
    Replaced s%"file_name" s%"filename" name (filenameProposal name) ∧
    Replaced s%"file_path" s%"filepath" name (filepathProposal name) :=
  ⟨replaced (by decide) _ _, replaced (by decide) _ _⟩

/-- A file whose fields all have proposed names, or names that need no proposal, is clean. -/
theorem C88_filename_followed : CleanOn messageFieldNamesFilenameLinter fun d =>
    ∀ f ∈ fields d, ∃ old, f.name = filenameProposal old := by
  refine silent_of C56_message_field_names_filename (fun _ _ => trivial) fun d hd => ?_
  refine filter_map_nil fun f hf hbad => ?_
  obtain ⟨old, ho⟩ := hd f hf
  obtain ⟨ps, _, hp, hc⟩ := (C88_replaced old).1
  rw [ho, hp] at hbad
  exact join_clean (c := 'f') ⟨_, rfl, by decide⟩ ⟨_, rfl, by decide⟩ (by decide) (by decide) ps hc hbad

theorem C88_filepath_followed : CleanOn messageFieldNamesFilepathLinter fun d =>
    ∀ f ∈ fields d, ∃ old, f.name = filepathProposal old := by
  refine silent_of C56_message_field_names_filepath (fun _ _ => trivial) fun d hd => ?_
  refine filter_map_nil fun f hf hbad => ?_
  obtain ⟨old, ho⟩ := hd f hf
  obtain ⟨ps, _, hp, hc⟩ := (C88_replaced old).2
  rw [ho, hp] at hbad
  exact join_clean (c := 'f') ⟨_, rfl, by decide⟩ ⟨_, rfl, by decide⟩ (by decide) (by decide) ps hc hbad

/-! ## Names of enum values -/

/-- The prefix for the values of an enum in these messages. -/
def valuePrefix (names : List Str) : Str := join s%"_" (names.map Strs.toUpperSnakeCase) ++ s%"_"

theorem C88_enum_field_prefixes : Says enumFieldPrefixesLinter fun d =>
    ((namedValues d).filter fun (names, value) => ¬ valuePrefix names <+: value.name).map
      fun (names, value) => (value.position, text [s%"Enum field ", quote value.name,
        s%" is expected to have the prefix ", quote (valuePrefix names), s%"."]) :=
  says_enumValues (bad := fun names value => ¬ valuePrefix names <+: value.name)
    (words := fun names value => text [s%"Enum field ", quote value.name,
        s%" is expected to have the prefix ", quote (valuePrefix names), s%"."])
    fun _ _ _ => .iff (not_iff hasPrefix_prefix)

/-- Putting the prefix in front of a name is enough. -/
theorem C88_enum_field_prefixes_followed : CleanOn enumFieldPrefixesLinter fun d =>
    ∀ v ∈ namedValues d, ∃ rest, v.2.name = valuePrefix v.1 ++ rest := by
  refine silent_of C30_enum_field_prefixes (fun _ _ => trivial) fun d hd => ?_
  refine filter_map_nil fun v hv hbad => hbad ?_
  obtain ⟨rest, hr⟩ := hd v hv
  exact ⟨rest, hr.symm⟩

theorem C88_enum_field_prefixes_except_message :
    SaysOn Grammatical enumFieldPrefixesExceptMessageLinter fun d =>
      ((valuesOfEnums d).filter fun (enum, value) => ¬ valuePrefix [enum.name] <+: value.name).map
        fun (enum, value) => (value.position, text [s%"Enum field ", quote value.name,
          s%" is expected to have the prefix ", quote (valuePrefix [enum.name]), s%"."]) :=
  says_enumParents (pre := fun _ => True)
    (bad := fun enum value => ¬ valuePrefix [enum.name] <+: value.name)
    (words := fun enum value => text [s%"Enum field ", quote value.name,
        s%" is expected to have the prefix ", quote (valuePrefix [enum.name]), s%"."])
    rfl fun _ _ _ => .iff (not_iff hasPrefix_prefix)

theorem C88_enum_field_prefixes_except_message_followed :
    CleanOn enumFieldPrefixesExceptMessageLinter fun d =>
      Grammatical d ∧ ∀ v ∈ valuesOfEnums d, ∃ rest, v.2.name = valuePrefix [v.1.name] ++ rest := by
  refine silent_of C30_enum_field_prefixes_except_message (fun _ h => h.1) fun d hd => ?_
  refine filter_map_nil fun v hv hbad => hbad ?_
  obtain ⟨rest, hr⟩ := hd.2 v hv
  exact ⟨rest, hr.symm⟩

theorem C88_enum_zero_values : Says enumZeroValuesInvalidLinter fun d =>
    ((namedValues d).filter fun (names, value) => value.integer = 0 ∧
      value.name ≠ valuePrefix names ++ s%"INVALID").map
      fun (names, value) => (value.position, text [s%"Zero value enum field ", quote value.name,
        s%" is expected to have the name ", quote (valuePrefix names ++ s%"INVALID"), s%"."]) := by
  have hn : ∀ names, valuePrefix names ++ s%"INVALID" =
      join s%"_" (names.map Strs.toUpperSnakeCase) ++ s%"_INVALID" := fun names => by
    unfold valuePrefix; rw [List.append_assoc]; rfl
  simp only [hn]
  exact says_enumValues (bad := fun names value => value.integer = 0 ∧
      value.name ≠ join s%"_" (names.map Strs.toUpperSnakeCase) ++ s%"_INVALID")
    (words := fun names value => text [s%"Zero value enum field ", quote value.name,
        s%" is expected to have the name ",
        quote (join s%"_" (names.map Strs.toUpperSnakeCase) ++ s%"_INVALID"), s%"."])
    fun _ _ _ => .and .rfl .rfl

theorem C88_enum_zero_values_followed : CleanOn enumZeroValuesInvalidLinter fun d =>
    ∀ v ∈ namedValues d, v.2.integer = 0 → v.2.name = valuePrefix v.1 ++ s%"INVALID" := by
  refine silent_of C30_enum_zero_values_invalid (fun _ _ => trivial) fun d hd => ?_
  refine filter_map_nil fun v hv hbad => hbad.2 ?_
  rw [hd v hv hbad.1]
  unfold valuePrefix
  rw [List.append_assoc]
  rfl

theorem C88_enum_zero_values_except_message :
    SaysOn Grammatical enumZeroValuesInvalidExceptMessageLinter fun d =>
      ((valuesOfEnums d).filter fun (enum, value) => value.integer = 0 ∧
        value.name ≠ valuePrefix [enum.name] ++ s%"INVALID").map
        fun (enum, value) => (value.position, text [s%"Zero value enum field ", quote value.name,
          s%" is expected to have the name ", quote (valuePrefix [enum.name] ++ s%"INVALID"),
          s%"."]) := by
  have hn : ∀ name, valuePrefix [name] ++ s%"INVALID" =
      Strs.toUpperSnakeCase name ++ s%"_INVALID" := fun name => by
    unfold valuePrefix; rw [List.append_assoc]; rfl
  simp only [hn]
  exact says_enumParents (bad := fun enum value => value.integer = 0 ∧
      value.name ≠ Strs.toUpperSnakeCase enum.name ++ s%"_INVALID")
    (words := fun enum value => text [s%"Zero value enum field ", quote value.name,
        s%" is expected to have the name ",
        quote (Strs.toUpperSnakeCase enum.name ++ s%"_INVALID"), s%"."])
    rfl fun _ _ _ => .and .rfl .rfl

theorem C88_enum_zero_values_except_message_followed :
    CleanOn enumZeroValuesInvalidExceptMessageLinter fun d =>
      Grammatical d ∧ ∀ v ∈ valuesOfEnums d, v.2.integer = 0 →
        v.2.name = valuePrefix [v.1.name] ++ s%"INVALID" := by
  refine silent_of C30_enum_zero_values_invalid_except_message (fun _ h => h.1) fun d hd => ?_
  refine filter_map_nil fun v hv hbad => hbad.2 ?_
  rw [hd.2 v hv hbad.1]
  unfold valuePrefix
  rw [List.append_assoc]
  rfl

/-! ## Request and response types -/

theorem C88_names_match : Says requestResponseNamesMatchRPCLinter fun d =>
    (rpcs d).flatMap fun r =>
      (if r.requestType ≠ r.name ++ s%"Request" then
        [(r.position, text [s%"Name of request type ", quote r.requestType, s%" should be ",
          quote (r.name ++ s%"Request"), s%"."])] else []) ++
      (if r.returnsType ≠ r.name ++ s%"Response" then
        [(r.position, text [s%"Name of response type ", quote r.returnsType, s%" should be ",
          quote (r.name ++ s%"Response"), s%"."])] else []) := by
  refine says_many (v := requestResponseNamesMatchRPC) (pick := asRPC) rfl rfl ?_ ?_
  · visitor_shape
  · intro l around e
    cases e <;> first | exact .nil | exact (Said.iff .rfl).append (.iff .rfl)

theorem C88_names_match_followed : CleanOn requestResponseNamesMatchRPCLinter fun d =>
    ∀ r ∈ rpcs d, r.requestType = r.name ++ s%"Request" ∧ r.returnsType = r.name ++ s%"Response" := by
  refine silent_of reports_match (fun _ _ => trivial) fun d hd => ?_
  rw [List.flatMap_eq_nil_iff]
  intro r hr
  simp [hd r hr]

/-! ## Comments -/

/-- The comment asked for. -/
def commentProposal (kind name : Str) : Str :=
  text [kind, quote name, s%" needs a comment of the form \"// ", name, s%" ...\""]

theorem C88_enums_have_comments : Says enumsHaveCommentsLinter fun d =>
    ((enums d).filter fun e => ¬ CommentNames e.comment e.name).map fun e =>
      (e.position, commentProposal s%"Enum " e.name) :=
  says_simple rfl rfl (by visitor_shape)
    (by visitor_said fun e : Enum => not_iff (hasGolangStyleComment_iff e.comment e.name))

theorem C88_enum_fields_have_comments : Says enumFieldsHaveCommentsLinter fun d =>
    ((enumValues d).filter fun e => ¬ CommentNames e.comment e.name).map fun e =>
      (e.position, commentProposal s%"Enum field " e.name) :=
  says_simple rfl rfl (by visitor_shape)
    (by visitor_said fun e : EnumField => not_iff (hasGolangStyleComment_iff e.comment e.name))

theorem C88_messages_have_comments : Says messagesHaveCommentsLinter fun d =>
    ((messages d).filter fun e => e.isExtend = false ∧ ¬ CommentNames e.comment e.name).map fun e =>
      (e.position, commentProposal s%"Message " e.name) :=
  says_simple rfl rfl (by visitor_shape)
    (by visitor_said fun e : Message => not_iff (hasGolangStyleComment_iff e.comment e.name))

theorem C88_message_fields_have_comments : Says messageFieldsHaveCommentsLinter fun d =>
    ((fields d).filter fun e => ¬ CommentNames e.comment e.name).map fun e =>
      (e.position, commentProposal s%"Message field " e.name) :=
  says_simple rfl rfl (by visitor_shape)
    (by visitor_said fun e : Field => not_iff (hasGolangStyleComment_iff e.comment e.name))

theorem C88_services_have_comments : Says servicesHaveCommentsLinter fun d =>
    ((services d).filter fun e => ¬ CommentNames e.comment e.name).map fun e =>
      (e.position, commentProposal s%"Service " e.name) :=
  says_simple rfl rfl (by visitor_shape)
    (by visitor_said fun e : Service => not_iff (hasGolangStyleComment_iff e.comment e.name))

theorem C88_rpcs_have_comments : Says rpcsHaveCommentsLinter fun d =>
    ((rpcs d).filter fun e => ¬ CommentNames e.comment e.name).map fun e =>
      (e.position, commentProposal s%"RPC " e.name) :=
  says_simple rfl rfl (by visitor_shape)
    (by visitor_said fun e : RPC => not_iff (hasGolangStyleComment_iff e.comment e.name))

/-- A comment whose first line is `// ` and the name and ` ` and anything is accepted, whatever
comes in the following lines. -/
theorem C88_comment_followed (c : Comment) (name : Str) (more : Str) (lines : List Str)
    (h : c.lines = (s%" " ++ name ++ s%" " ++ more) :: lines) : CommentNames (some c) name :=
  ⟨c, _, lines, more, rfl, h, rfl⟩

/-! ## File options -/

/-- The rules that prescribe the value of an option name this value. -/
theorem C88_options : ∀ rule ∈ prescribing, SaysOn (fun d => d.filename ≠ []) rule.1 fun d =>
    match (packages d).getLast? with
    | none => []
    | some p => ((declared rule.2.1 d).getLast?.toList.filter fun o =>
        o.constant.source ≠ rule.2.2 d p.name).map fun o =>
          (o.position, text [s%"Expected ", quote (rule.2.2 d p.name), s%" for option ",
            quote o.name, s%" but was ", quote o.constant.source, s%"."]) := by
  have key : ∀ (name id purpose : Str) (value : FileDescriptor → Str → Str),
      SaysOn (fun d => d.filename ≠ []) (newLinter id purpose (visitWith (fileOptionsEqual name
        fun d p => value d p.name) {})) fun d =>
      match (packages d).getLast? with
      | none => []
      | some p => ((declared name d).getLast?.toList.filter fun o =>
          o.constant.source ≠ value d p.name).map fun o =>
            (o.position, text [s%"Expected ", quote (value d p.name), s%" for option ",
              quote o.name, s%" but was ", quote o.constant.source, s%"."]) := by
    intro name id purpose value
    refine says_equal (purpose := purpose) name id _ fun d hd => ?_
    unfold declared fileOptionsEqual
    dsimp only
    cases (packages d).getLast? with
    | none => exact .nil
    | some p =>
      cases ((fileOptions d).filter fun o => o.name = name).getLast? with
      | none => exact .nil
      | some o =>
        dsimp only
        rw [if_neg hd]
        have : (((some o).toList.filter fun o => o.constant.source ≠ value d p.name).map fun o =>
            (o.position, text [s%"Expected ", quote (value d p.name), s%" for option ",
              quote o.name, s%" but was ", quote o.constant.source, s%"."])) =
            if o.constant.source ≠ value d p.name then
              [(o.position, text [s%"Expected ", quote (value d p.name), s%" for option ",
                quote o.name, s%" but was ", quote o.constant.source, s%"."])] else [] := by
          by_cases hb : o.constant.source = value d p.name <;> simp [hb]
        rw [this]
        exact .iff ⟨Ne.symm, Ne.symm⟩
  intro rule hr
  simp only [prescribing, List.mem_cons, List.not_mem_nil, or_false] at hr
  rcases hr with rfl | rfl | rfl | rfl | rfl | rfl | rfl | rfl | rfl
  · exact key _ _ _ fun _ => Protostrs.csharpNamespace
  · exact key _ _ _ fun _ => Protostrs.goPackageV2
  · exact key _ _ _ fun _ => Protostrs.goPackage
  · exact key _ _ _ fun _ _ => s%"true"
  · exact key _ _ _ fun d _ => Protostrs.javaOuterClassname d.filename
  · exact key _ _ _ fun _ => Protostrs.javaPackage
  · exact key _ _ _ fun d pkg => Protostrs.javaPackagePrefixOverride pkg d.config.lint.javaPackagePrefix
  · exact key _ _ _ fun _ => Protostrs.objcClassPrefix
  · exact key _ _ _ fun _ => Protostrs.phpNamespace

/-- A file whose last declaration of the option has the value is clean. -/
theorem C88_options_followed : ∀ rule ∈ prescribing, CleanOn rule.1 fun d => d.filename ≠ [] ∧
    ∀ p ∈ (packages d).getLast?, ∀ o ∈ (declared rule.2.1 d).getLast?,
      o.constant.source = rule.2.2 d p.name := by
  intro rule hr
  refine silent_of (C58_prescribed rule hr) (fun _ h => h.1) fun d hd => ?_
  cases hp : (packages d).getLast? with
  | none => rfl
  | some p =>
    dsimp only
    refine filter_map_nil fun o ho hbad => hbad ?_
    exact hd.2 p hp o (by simpa using ho)

/-! ## Services -/

/-- The name of the file for a service. -/
def fileProposal (service : Str) : Str := Strs.toLowerSnakeCase service ++ s%".proto"

theorem C88_service_file : Says serviceNamesMatchFileNameLinter fun d =>
    match services d with
    | [] => []
    | [s] => if Path.base d.filename ≠ fileProposal s.name then
        [(s.position, text [s%"Expected filename to be ", quote (fileProposal s.name),
          s%" for file containing service ", quote s.name, s%" but was ",
          quote (Path.base d.filename), s%"."])] else []
    | ss => ss.map fun s => (s.position, s%"Multiple services defined in this file and there should be only one service per file.") := by
  refine says_services fun l d => ?_
  unfold serviceNamesMatchFileName
  dsimp only
  match services d with
  | [] => exact .nil
  | [s] => exact .iff .rfl
  | a :: b :: ss =>
    dsimp only
    rw [← flatMap_one]
    exact .flatMap _ fun s _ => by
      have h := Said.fail (l := l) s.position [s%"Multiple services defined in this file and there should be only one service per file."]
      have ht : text [s%"Multiple services defined in this file and there should be only one service per file."] = s%"Multiple services defined in this file and there should be only one service per file." :=
        List.append_nil _
      rw [ht] at h
      exact h

theorem C88_service_file_followed : CleanOn serviceNamesMatchFileNameLinter fun d =>
    ∃ s, services d = [s] ∧ lastComponent d.filename = fileProposal s.name := by
  refine silent_of reports_services (fun _ _ => trivial) fun d ⟨s, hs, hd⟩ => ?_
  have hsuf : s%".proto" <:+ d.filename :=
    List.IsSuffix.trans ⟨_, hd.symm⟩ (by
      unfold lastComponent
      rw [← List.reverse_prefix, List.reverse_reverse]
      exact List.takeWhile_prefix _)
  obtain ⟨q, hq⟩ := hsuf
  have hb : Path.base d.filename = fileProposal s.name := by
    rw [← hd, ← hq]
    exact base_proto q
  rw [hs]
  dsimp only
  rw [if_neg]
  exact not_not_intro hb

theorem C88_api_suffix : Says serviceNamesAPISuffixLinter fun d =>
    ((services d).filter fun s => ¬ s%"API" <:+ s.name).map fun s =>
      (s.position, if s%"Service" <:+ s.name then
          text [s%"Service name ", quote s.name, s%" must end with \"API\". Since it currently ends with \"Service\", this likely means replacing \"Service\" with \"API\""]
        else text [s%"Service name ", quote s.name, s%" must end with \"API\"."]) :=
  says_simple rfl rfl (by visitor_shape) (by
    intro l around e
    cases e with
    | service s es =>
      exact .ite (not_iff hasSuffix_suffix) (.either hasSuffix_suffix) .nil
    | _ => exact .nil)

theorem C88_api_suffix_followed : CleanOn serviceNamesAPISuffixLinter fun d =>
    ∀ s ∈ services d, ∃ name, s.name = name ++ s%"API" := by
  refine silent_of C57_service_names_api_suffix (fun _ _ => trivial) fun d hd => ?_
  refine filter_map_nil fun s hs hbad => hbad ?_
  obtain ⟨name, hn⟩ := hd s hs
  exact ⟨name, hn.symm⟩

/-! ## Reserved declarations -/

/-- The report names the message or enum the declaration is in, and tells numbers from names. -/
theorem C88_reserved : Says fieldsNotReservedLinter fun d =>
    ((inside (fun e => isMessage e || isEnum e) d).filterMap fun n =>
      (asReserved n).map fun r => (namesAround n.around, r)).map fun (names, r) =>
        (r.position, text [quote (join s%"." names), s%" cannot have reserved ",
          if r.ranges.length > 0 then s%"field numbers" else s%"field names",
          s%", use the deprecated field option instead."]) :=
  says_reserved

/-! ## The theorems are about something -/

example : filenameProposal s%"my_file_name_and_file_name" = s%"my_filename_and_filename" := by
  decide +kernel
example : filepathProposal s%"file_path" = s%"filepath" := by decide +kernel
example : ((fields fieldsFile).filter fun f => s%"file_name" <:+: f.name).map (fun f =>
    (f.position.line, text [s%"Field name ", quote f.name, s%" should be ",
      quote (filenameProposal f.name), s%"."])) =
    [(1, s%"Field name \"file_name\" should be \"filename\".")] := by decide +kernel
/-- A field that follows the proposal. -/
example : ∀ f ∈ fields (Sample.file s%"a.proto" [.message { name := s%"M" }
    [.normalField (fieldsFile.field 1 s%"filename" s%"string" [])]]),
    ∃ old, f.name = filenameProposal old := by
  intro f hf
  refine ⟨s%"file_name", ?_⟩
  revert f
  decide +kernel
example : valuePrefix [s%"Outer", s%"MyEnum"] = s%"OUTER_MY_ENUM_" := by decide +kernel
example : (namedValues Sample.names).map (fun v => (v.1, v.2.name)) = [([s%"m", s%"e"], s%"a")] := by
  decide
example : commentProposal s%"Enum " s%"E" = s%"Enum \"E\" needs a comment of the form \"// E ...\"" := by
  decide +kernel
example : fileProposal s%"TripAPI" = s%"trip_api.proto" := by decide +kernel
example : (services single).map (·.name) = [s%"TripAPI"] ∧
    Path.base single.filename ≠ fileProposal s%"TripAPI" := by decide +kernel
example : lastComponent s%"a/trip_api.proto" = fileProposal s%"TripAPI" := by decide +kernel
/-- A message with reserved numbers and an enum in it with reserved names. -/
def reservedFile : FileDescriptor := Sample.file s%"a.proto"
  [.message { name := s%"M" }
    [.reserved { position := Sample.at_ 1 0, ranges := [⟨1, 1, false⟩] },
     .enum { name := s%"E" } [.reserved { position := Sample.at_ 2 0, fieldNames := [s%"x"] }]]]
example : ((inside (fun e => isMessage e || isEnum e) reservedFile).filterMap fun n =>
      (asReserved n).map fun r => (namesAround n.around, r)).map (fun (names, r) =>
        (r.position.line, join s%"." names, decide (r.ranges.length > 0))) =
    [(1, s%"M", true), (2, s%"M.E", false)] := by decide +kernel
example : ∀ p ∈ (packages options).getLast?, ∀ o ∈ (declared s%"go_package" options).getLast?,
    o.constant.source ≠ Protostrs.goPackageV2 p.name := by decide +kernel

end Verif.Props
