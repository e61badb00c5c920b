import Verif.Proof.ReportsTree
import Verif.Spec.Sample

/-! # C57: the rules about imports, headers, aliases, reserved fields and RPCs -/

namespace Verif.Props

open Verif Proto Spec Lint Str

/-- ENUMS_NO_ALLOW_ALIAS: the option is reported whatever its value. -/
theorem C57_enums_no_allow_alias : Reports enumsNoAllowAliasLinter fun d =>
    ((enumOptions d).filter fun o => o.name = s%"allow_alias").map (·.position) :=
  reports_simple rfl rfl (by visitor_shape) (by
    intro l around e
    cases e with
    | option o =>
      cases around with
      | nil => exact .nil
      | cons a around => cases a <;> first | exact .nil | exact .iff .rfl
    | _ => cases around with
      | nil => exact .nil
      | cons a around => cases a <;> exact .nil)

/-- FIELDS_NOT_RESERVED. -/
theorem C57_fields_not_reserved : Reports fieldsNotReservedLinter fun d =>
    (reservedDecls d).map (·.position) :=
  reports_reserved

/-- FILE_HEADER: the text of the file must begin with the configured header, if there is one. -/
theorem C57_file_header : Reports fileHeaderLinter fun d =>
    if ¬ d.config.lint.fileHeader <+: d.fileData then [{ filename := d.filename }] else [] :=
  reports_start rfl rfl (by intro around e k; cases e <;> rfl) fun l d _ => by
    by_cases h : d.config.lint.fileHeader = []
    · rw [if_neg (fun hn => hn h), if_neg (fun hn => hn (h ▸ List.nil_prefix))]
      exact .nil
    · rw [if_pos h]
      exact .iff (not_iff hasPrefix_prefix)

/-- GOGO_NOT_IMPORTED. -/
theorem C57_gogo_not_imported : Reports gogoNotImportedLinter fun d =>
    ((imports d).filter fun i => s%"gogo.proto" <:+ i.filename).map (·.position) :=
  reports_simple rfl rfl (by visitor_shape) (by visitor_own fun i : Import => hasSuffix_suffix)

/-- IMPORTS_NOT_PUBLIC. -/
theorem C57_imports_not_public : Reports importsNotPublicLinter fun d =>
    ((imports d).filter fun i => i.kind = s%"public").map (·.position) :=
  reports_simple rfl rfl (by visitor_shape) (by
    intro l around e
    cases e <;> first | exact .nil | exact .iff Iff.rfl)

/-- IMPORTS_NOT_WEAK. -/
theorem C57_imports_not_weak : Reports importsNotWeakLinter fun d =>
    ((imports d).filter fun i => i.kind = s%"weak").map (·.position) :=
  reports_simple rfl rfl (by visitor_shape) (by
    intro l around e
    cases e <;> first | exact .nil | exact .iff Iff.rfl)

/-- WKT_DIRECTLY_IMPORTED: an import that ends with the path of a well-known file, but is
not that path, is reported once. -/
theorem C57_wkt_directly_imported (env : Env) : Reports (wktDirectlyImportedLinter env) fun d =>
    ((imports d).filter fun i => ∃ w ∈ wellKnown, w <:+ i.filename ∧ i.filename ≠ w).map
      (·.position) :=
  reports_simple rfl rfl (by visitor_shape) (by
    intro l around e
    cases e <;> first | exact .nil | exact at_wkt env _)

/-- RPCS_NO_STREAMING. -/
theorem C57_rpcs_no_streaming : Reports rpcsNoStreamingLinter fun d =>
    ((rpcs d).filter fun r => r.streamsRequest = true ∨ r.streamsReturns = true).map (·.position) :=
  reports_simple rfl rfl (by visitor_shape) (by visitor_own fun r : RPC => or_bool .rfl .rfl)

/-- SERVICE_NAMES_API_SUFFIX. -/
theorem C57_service_names_api_suffix : Reports serviceNamesAPISuffixLinter fun d =>
    ((services d).filter fun s => ¬ s%"API" <:+ s.name).map (·.position) :=
  reports_simple rfl rfl (by visitor_shape) (by
    intro l around e
    cases e with
    | service s es =>
      exact .ite (not_iff hasSuffix_suffix) (at_either (.fail _ _) (.fail _ _)) .nil
    | _ => exact .nil)

/-- In a file that follows the grammar and has no groups these are all such elements. -/
theorem C57_everywhere (d : FileDescriptor) (hg : Grammatical d) (hn : NoGroups d) :
    enumOptions d = (fileNodes d).filterMap asEnumOption ∧
    reservedDecls d = (fileNodes d).filterMap asReserved ∧
    imports d = (fileNodes d).filterMap asImport := by
  refine ⟨?_, ?_, ?_⟩ <;> exact inside_grammar hg hn (by by_kinds)

/-! ## The theorems are about something -/

/-- ```
import public "x/google/protobuf/any.proto";
import weak "gogo.proto";
enum E { option allow_alias = true; reserved 1; }
service S { rpc R(stream M) returns (M); }
``` -/
def other : FileDescriptor := Sample.file s%"a.proto"
  [.import { position := Sample.at_ 1 0, filename := s%"x/google/protobuf/any.proto", kind := s%"public" },
   .import { position := Sample.at_ 2 0, filename := s%"gogo.proto", kind := s%"weak" },
   .enum { name := s%"E" }
     [.option { position := Sample.at_ 3 0, name := s%"allow_alias", constant := .plain s%"true" },
      .reserved { position := Sample.at_ 3 9 }],
   .service { position := Sample.at_ 4 0, name := s%"S" }
     [.rpc { position := Sample.at_ 4 9, name := s%"R", requestType := s%"M", streamsRequest := true, returnsType := s%"M" } []]]

example : ((enumOptions other).filter fun o => o.name = s%"allow_alias").map (·.position) =
    [Sample.at_ 3 0] := by decide
example : (reservedDecls other).map (·.position) = [Sample.at_ 3 9] := by decide
example : ((imports other).filter fun i => s%"gogo.proto" <:+ i.filename).map (·.position) =
    [Sample.at_ 2 0] := by decide
example : ((imports other).filter fun i => i.kind = s%"public").map (·.position) =
    [Sample.at_ 1 0] := by decide
example : ((imports other).filter fun i => ∃ w ∈ wellKnown, w <:+ i.filename ∧ i.filename ≠ w).map
    (·.position) = [Sample.at_ 1 0] := by decide
example : ((rpcs other).filter fun r => r.streamsRequest = true ∨ r.streamsReturns = true).map
    (·.position) = [Sample.at_ 4 9] := by decide
example : ((services other).filter fun s => ¬ s%"API" <:+ s.name).map (·.position) =
    [Sample.at_ 4 0] := by decide
example : ¬ s%"// Copyright" <+: s%"syntax = \"proto3\";" := by decide
example : Grammatical other ∧ NoGroups other := by decide

end Verif.Props
