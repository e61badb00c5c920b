import Verif.Proof.ReportsTree
import Verif.Spec.Sample

/-! # C56: the rules about message fields

`fields` are all fields, `nonMapFields` those that are not maps. -/

namespace Verif.Props

open Verif Proto Spec Lint Str

/-- MESSAGE_FIELD_NAMES_FILENAME. -/
theorem C56_message_field_names_filename : Reports messageFieldNamesFilenameLinter fun d =>
    ((fields d).filter fun f => s%"file_name" <:+: f.name).map (·.position) :=
  reports_simple rfl rfl (by visitor_shape) (by visitor_own fun f : Field => contains_infix)

/-- MESSAGE_FIELD_NAMES_FILEPATH. -/
theorem C56_message_field_names_filepath : Reports messageFieldNamesFilepathLinter fun d =>
    ((fields d).filter fun f => s%"file_path" <:+: f.name).map (·.position) :=
  reports_simple rfl rfl (by visitor_shape) (by visitor_own fun f : Field => contains_infix)

/-- MESSAGE_FIELD_NAMES_NO_DESCRIPTOR: `descriptor` in any case, possibly with underscores
before and after it. -/
theorem C56_message_field_names_no_descriptor :
    Reports messageFieldNamesNoDescriptorLinter fun d =>
      ((fields d).filter fun f => Descriptorish f.name).map (·.position) :=
  reports_simple rfl rfl (by visitor_shape)
    (by visitor_own fun f : Field => descriptor_iff f.name)

/-- MESSAGE_FIELDS_DURATION. -/
theorem C56_message_fields_duration : Reports messageFieldsDurationLinter fun d =>
    ((nonMapFields d).filter fun f =>
      s%"duration" <:+: f.name ∧ f.type ≠ s%"google.protobuf.Duration").map (·.position) :=
  reports_simple rfl rfl (by visitor_shape)
    (by visitor_own fun f : Field => and_bool contains_infix (decide_eq_true_iff (p := f.type ≠ _)))

/-- MESSAGE_FIELDS_TIME. -/
theorem C56_message_fields_time : Reports messageFieldsTimeLinter fun d =>
    ((nonMapFields d).filter fun f =>
      s%"time" <:+: f.name ∧ f.type ≠ s%"google.protobuf.Timestamp").map (·.position) :=
  reports_simple rfl rfl (by visitor_shape)
    (by visitor_own fun f : Field => and_bool contains_infix (decide_eq_true_iff (p := f.type ≠ _)))

/-- WKT_DURATION_SUFFIX. -/
theorem C56_wkt_duration_suffix : Reports wktDurationSuffixLinter fun d =>
    ((nonMapFields d).filter fun f => f.type = s%"google.protobuf.Duration" ∧
      ¬ (f.name = s%"duration" ∨ s%"_duration" <:+ f.name)).map (·.position) :=
  reports_simple rfl rfl (by visitor_shape)
    (by visitor_own fun f : Field => and_bool (decide_eq_true_iff (p := f.type = _))
            (not_iff (or_bool (decide_eq_true_iff (p := f.name = _)) hasSuffix_suffix)))

/-- WKT_TIMESTAMP_SUFFIX. -/
theorem C56_wkt_timestamp_suffix : Reports wktTimestampSuffixLinter fun d =>
    ((nonMapFields d).filter fun f => f.type = s%"google.protobuf.Timestamp" ∧
      ¬ (f.name = s%"time" ∨ s%"_time" <:+ f.name)).map (·.position) :=
  reports_simple rfl rfl (by visitor_shape)
    (by visitor_own fun f : Field => and_bool (decide_eq_true_iff (p := f.type = _))
            (not_iff (or_bool (decide_eq_true_iff (p := f.name = _)) hasSuffix_suffix)))

/-- MESSAGE_FIELDS_NO_JSON_NAME: one report for each such option. -/
theorem C56_message_fields_no_json_name : Reports messageFieldsNoJSONNameLinter fun d =>
    (fields d).flatMap fun f =>
      (f.options.filter fun o => o.name = s%"json_name").map fun _ => f.position :=
  reports_many rfl rfl (by visitor_shape) (by
    intro l around e
    cases e <;> first | exact .nil | exact at_options _ _ _)

/-- In a file that follows the grammar and has no groups these are all fields. -/
theorem C56_everywhere (d : FileDescriptor) (hg : Grammatical d) (hn : NoGroups d) :
    fields d = (fileNodes d).filterMap asField ∧
    nonMapFields d = (fileNodes d).filterMap asNonMapField := by
  constructor <;> exact inside_grammar hg hn (by by_kinds)

/-! ## The theorems are about something -/

/-- A message with fields `file_name`, `_Descriptor_`, `start_time`, `t`, `durations`. -/
def fieldsFile : FileDescriptor := Sample.file s%"a.proto" [.message { name := s%"M" }
  [.normalField (field 1 s%"file_name" s%"string" [⟨{}, none, s%"json_name", .str s%"x", none⟩]),
   .oneof { name := s%"o" } [.oneofField (field 2 s%"_Descriptor_" s%"string" []).field],
   .normalField (field 3 s%"start_time" s%"int64" []),
   .normalField (field 4 s%"t" s%"google.protobuf.Timestamp" []),
   .mapField ⟨(field 5 s%"durations" s%"int64" []).field, s%"string"⟩]]
where
  field (n : Int) (name type : Str) (options : List Opt) : NormalField :=
    { field := ⟨Sample.at_ n 0, none, name, type, n, options, none⟩ }

example : ((fields fieldsFile).filter fun f => s%"file_name" <:+: f.name).map
    (·.position.line) = [1] := by decide
example : ((fields fieldsFile).filter fun f => Descriptorish f.name).map
    (·.position.line) = [2] := by decide
example : ((nonMapFields fieldsFile).filter fun f =>
      s%"time" <:+: f.name ∧ f.type ≠ s%"google.protobuf.Timestamp").map
    (·.position.line) = [3] := by decide
example : ((nonMapFields fieldsFile).filter fun f => f.type = s%"google.protobuf.Timestamp" ∧
      ¬ (f.name = s%"time" ∨ s%"_time" <:+ f.name)).map (·.position.line) = [4] := by decide
example : ((nonMapFields fieldsFile).filter fun f =>
      s%"duration" <:+: f.name ∧ f.type ≠ s%"google.protobuf.Duration").map
    (·.position.line) = [] := by decide
example : ((fields fieldsFile).flatMap fun f =>
      (f.options.filter fun o => o.name = s%"json_name").map fun _ => f.position) =
    [Sample.at_ 1 0] := by decide

end Verif.Props
