import Verif.Proof.ReportsTree
import Verif.Spec.Sample

/-!
# C30: the rules about the names of enum values

`namedValues` and `valuesOfEnums` list the enum values of a file with what is around them,
see Verif/Spec/LintReports.lean. `ToUpperSnakeCase` is the subject of C15.
-/

namespace Verif.Props

open Verif Proto Spec Lint Str

/-- ENUM_FIELD_PREFIXES: `OUTER_INNER_ENUM_` for an enum in a message in a message. -/
theorem C30_enum_field_prefixes : Reports enumFieldPrefixesLinter fun d =>
    ((namedValues d).filter fun (names, value) =>
      ¬ join s%"_" (names.map Strs.toUpperSnakeCase) ++ s%"_" <+: value.name).map
        fun (_, value) => value.position :=
  reports_enumValues (bad := fun names value =>
      ¬ join s%"_" (names.map Strs.toUpperSnakeCase) ++ s%"_" <+: value.name)
    fun _ _ _ => .iff (not_iff hasPrefix_prefix)

/-- ENUM_ZERO_VALUES_INVALID: `OUTER_INNER_ENUM_INVALID`. -/
theorem C30_enum_zero_values_invalid : Reports enumZeroValuesInvalidLinter fun d =>
    ((namedValues d).filter fun (names, value) => value.integer = 0 ∧
      value.name ≠ join s%"_" (names.map Strs.toUpperSnakeCase) ++ s%"_INVALID").map
        fun (_, value) => value.position :=
  reports_enumValues (bad := fun names value => value.integer = 0 ∧
      value.name ≠ join s%"_" (names.map Strs.toUpperSnakeCase) ++ s%"_INVALID")
    fun _ _ _ => .and .rfl .rfl

/-- ENUM_FIELD_PREFIXES_EXCEPT_MESSAGE. An enum value that is not in an enum, which no
parser makes, would crash the rule. -/
theorem C30_enum_field_prefixes_except_message :
    ReportsOn Grammatical enumFieldPrefixesExceptMessageLinter fun d =>
      ((valuesOfEnums d).filter fun (enum, value) =>
        ¬ Strs.toUpperSnakeCase enum.name ++ s%"_" <+: value.name).map
          fun (_, value) => value.position :=
  reports_enumParents (pre := fun _ => True) (bad := fun enum value =>
      ¬ Strs.toUpperSnakeCase enum.name ++ s%"_" <+: value.name)
    rfl fun _ _ _ => .iff (not_iff hasPrefix_prefix)

/-- ENUM_ZERO_VALUES_INVALID_EXCEPT_MESSAGE. -/
theorem C30_enum_zero_values_invalid_except_message :
    ReportsOn Grammatical enumZeroValuesInvalidExceptMessageLinter fun d =>
      ((valuesOfEnums d).filter fun (enum, value) => value.integer = 0 ∧
        value.name ≠ Strs.toUpperSnakeCase enum.name ++ s%"_INVALID").map
          fun (_, value) => value.position :=
  reports_enumParents (bad := fun enum value => value.integer = 0 ∧
      value.name ≠ Strs.toUpperSnakeCase enum.name ++ s%"_INVALID")
    rfl fun _ _ _ => .and .rfl .rfl

/-- In a file that follows the grammar and has no groups these are all enum values. -/
theorem C30_everywhere (d : FileDescriptor) (hg : Grammatical d) (hn : NoGroups d) :
    namedValues d = (fileNodes d).filterMap asNamedValue ∧
    valuesOfEnums d = (fileNodes d).filterMap asValueOfEnum := by
  constructor <;> exact inside_grammar hg hn (by by_kinds)

example : (namedValues Sample.names).map (·.1) = [[s%"m", s%"e"]] := by decide
example : Grammatical Sample.names ∧ (valuesOfEnums Sample.names).map (·.1.name) = [s%"e"] := by
  decide
/-- The value `a` of `m.e` should be `M_E_INVALID`. -/
example : ((namedValues Sample.names).filter fun (names, value) => value.integer = 0 ∧
      value.name ≠ join s%"_" (names.map Strs.toUpperSnakeCase) ++ s%"_INVALID").map
        (fun (_, value) => value.position.column) = [12] := by decide

end Verif.Props
