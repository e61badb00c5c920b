import Verif.Proof.ReportsFile
import Verif.Proof.Grammar
import Verif.Spec.Sample

/-!
# C29: the naming rules report exactly the offending elements

`Reports` and the collections of the things in a file are in Verif/Spec/LintReports.lean.
-/

namespace Verif.Props

open Verif Proto Spec Lint Str

/-- ENUM_NAMES_CAMEL_CASE. -/
theorem C29_enum_names_camel_case : Reports enumNamesCamelCaseLinter fun d =>
    ((enums d).filter fun e => ¬ CamelCase e.name).map (·.position) :=
  reports_simple rfl rfl (by visitor_shape)
    (by visitor_own fun e : Enum => not_iff (isCamelCase_iff e.name))

/-- ENUM_NAMES_CAPITALIZED. -/
theorem C29_enum_names_capitalized : Reports enumNamesCapitalizedLinter fun d =>
    ((enums d).filter fun e => ¬ Capitalized e.name).map (·.position) :=
  reports_simple rfl rfl (by visitor_shape)
    (by visitor_own fun e : Enum => not_iff (isCapitalized_iff e.name))

/-- ENUM_FIELD_NAMES_UPPER_SNAKE_CASE. -/
theorem C29_enum_field_names_upper_snake_case : Reports enumFieldNamesUpperSnakeCaseLinter fun d =>
    ((enumValues d).filter fun e => ¬ UpperSnakeCase e.name).map (·.position) :=
  reports_simple rfl rfl (by visitor_shape)
    (by visitor_own fun e : EnumField => not_iff (isUpperSnakeCase_iff e.name))

/-- ENUM_FIELD_NAMES_UPPERCASE. -/
theorem C29_enum_field_names_uppercase : Reports enumFieldNamesUppercaseLinter fun d =>
    ((enumValues d).filter fun e => ¬ Uppercase e.name).map (·.position) :=
  reports_simple rfl rfl (by visitor_shape)
    (by visitor_own fun e : EnumField => not_iff (isUppercase_iff e.name))

/-- MESSAGE_FIELD_NAMES_LOWER_SNAKE_CASE. -/
theorem C29_message_field_names_lower_snake_case :
    Reports messageFieldNamesLowerSnakeCaseLinter fun d =>
      ((fields d).filter fun e => ¬ LowerSnakeCase e.name).map (·.position) :=
  reports_simple rfl rfl (by visitor_shape)
    (by visitor_own fun e : Field => not_iff (isLowerSnakeCase_iff e.name))

/-- MESSAGE_FIELD_NAMES_LOWERCASE. -/
theorem C29_message_field_names_lowercase : Reports messageFieldNamesLowercaseLinter fun d =>
    ((fields d).filter fun e => ¬ Lowercase e.name).map (·.position) :=
  reports_simple rfl rfl (by visitor_shape)
    (by visitor_own fun e : Field => not_iff (isLowercase_iff e.name))

/-- ONEOF_NAMES_LOWER_SNAKE_CASE. -/
theorem C29_oneof_names_lower_snake_case : Reports oneofNamesLowerSnakeCaseLinter fun d =>
    ((oneofs d).filter fun e => ¬ LowerSnakeCase e.name).map (·.position) :=
  reports_simple rfl rfl (by visitor_shape)
    (by visitor_own fun e : Oneof => not_iff (isLowerSnakeCase_iff e.name))

/-- RPC_NAMES_CAMEL_CASE. -/
theorem C29_rpc_names_camel_case : Reports rpcNamesCamelCaseLinter fun d =>
    ((rpcs d).filter fun e => ¬ CamelCase e.name).map (·.position) :=
  reports_simple rfl rfl (by visitor_shape)
    (by visitor_own fun e : RPC => not_iff (isCamelCase_iff e.name))

/-- RPC_NAMES_CAPITALIZED. -/
theorem C29_rpc_names_capitalized : Reports rpcNamesCapitalizedLinter fun d =>
    ((rpcs d).filter fun e => ¬ Capitalized e.name).map (·.position) :=
  reports_simple rfl rfl (by visitor_shape)
    (by visitor_own fun e : RPC => not_iff (isCapitalized_iff e.name))

/-- SERVICE_NAMES_CAMEL_CASE. -/
theorem C29_service_names_camel_case : Reports serviceNamesCamelCaseLinter fun d =>
    ((services d).filter fun e => ¬ CamelCase e.name).map (·.position) :=
  reports_simple rfl rfl (by visitor_shape)
    (by visitor_own fun e : Service => not_iff (isCamelCase_iff e.name))

/-- SERVICE_NAMES_CAPITALIZED. -/
theorem C29_service_names_capitalized : Reports serviceNamesCapitalizedLinter fun d =>
    ((services d).filter fun e => ¬ Capitalized e.name).map (·.position) :=
  reports_simple rfl rfl (by visitor_shape)
    (by visitor_own fun e : Service => not_iff (isCapitalized_iff e.name))

/-- MESSAGE_NAMES_CAMEL_CASE. Extensions (`extend X`) are not messages of the file. -/
theorem C29_message_names_camel_case : Reports messageNamesCamelCaseLinter fun d =>
    ((messages d).filter fun e => e.isExtend = false ∧ ¬ CamelCase e.name).map (·.position) :=
  reports_simple rfl rfl (by visitor_shape)
    (by visitor_own fun e : Message => not_iff (isCamelCase_iff e.name))

/-- MESSAGE_NAMES_CAPITALIZED. -/
theorem C29_message_names_capitalized : Reports messageNamesCapitalizedLinter fun d =>
    ((messages d).filter fun e => e.isExtend = false ∧ ¬ Capitalized e.name).map (·.position) :=
  reports_simple rfl rfl (by visitor_shape)
    (by visitor_own fun e : Message => not_iff (isCapitalized_iff e.name))

/-- FILE_NAMES_LOWER_SNAKE_CASE: a file whose name without directories and `.proto` is not
lower_snake_case is reported, without a line. -/
theorem C29_file_names_lower_snake_case :
    ReportsOn (fun d => s%".proto" <:+ d.filename) fileNamesLowerSnakeCaseLinter fun d =>
      if ¬ LowerSnakeCase (fileStem d.filename) then [{ filename := d.filename }] else [] :=
  reports_start rfl rfl (by intro around e k; cases e <;> rfl) fun l d hd => by
    dsimp only
    rw [fileStem_eq hd]
    exact .iff (not_iff (isLowerSnakeCase_iff _))

/-- PACKAGE_LOWER_CASE. As in the next rules, further package declarations, which are not
valid, are reported, too. -/
theorem C29_package_lower_case (env : Env) : Reports (packageLowerCaseLinter env) fun d =>
    (packages d).tail.map (·.position) ++
      ((packages d).head?.toList.filter fun p => ¬ PackageLowerCase p.name).map (·.position) :=
  reports_package (at_ := fun _ p =>
      (p.toList.filter fun p : Package => ¬ PackageLowerCase p.name).map (Package.position ·))
    fun l f p => by
      cases p with
      | none => exact .nil
      | some p => rw [first_package]; exact .iff (not_iff (isPackageLowerCase_iff p.name))

/-- PACKAGE_LOWER_SNAKE_CASE. The name is judged without its periods. -/
theorem C29_package_lower_snake_case (env : Env) : Reports (packageLowerSnakeCaseLinter env) fun d =>
    (packages d).tail.map (·.position) ++
      ((packages d).head?.toList.filter fun p =>
        ¬ LowerSnakeCase (p.name.filter (· ≠ '.'))).map (·.position) :=
  reports_package (at_ := fun _ p => (p.toList.filter fun p : Package =>
      ¬ LowerSnakeCase (p.name.filter (· ≠ '.'))).map (Package.position ·))
    fun l f p => by
      cases p with
      | none => exact .nil
      | some p =>
        rw [first_package]
        dsimp only
        rw [replaceAll_period]
        exact .iff (not_iff (isLowerSnakeCase_iff _))

/-- So a package with a component that is not lower_snake_case may pass. -/
theorem C29_package_lower_snake_case_accepts :
    LowerSnakeCase (s%"foo_.bar".filter (· ≠ '.')) ∧ ¬ ∀ c ∈ splitChar '.' s%"foo_.bar", LowerSnakeCase c := by
  decide

/-- In a file that follows the grammar and has no groups, the collections used above are
all the messages, enums, … of the file, at any depth. -/
theorem C29_everywhere (d : FileDescriptor) (hg : Grammatical d) (hn : NoGroups d) :
    messages d = (fileNodes d).filterMap asMessage ∧
    enums d = (fileNodes d).filterMap asEnum ∧
    enumValues d = (fileNodes d).filterMap asEnumValue ∧
    fields d = (fileNodes d).filterMap asField ∧
    oneofs d = (fileNodes d).filterMap asOneof ∧
    services d = (fileNodes d).filterMap asService ∧
    rpcs d = (fileNodes d).filterMap asRPC := by
  refine ⟨?_, ?_, ?_, ?_, ?_, ?_, ?_⟩ <;> exact inside_grammar hg hn (by by_kinds)

/-- Inside a group nothing is reported: no rule sees the enum `a_b` of the sample. -/
theorem C29_not_in_groups :
    ((fileNodes Sample.group).filterMap asEnum).map (·.name) = [s%"a_b"] ∧
      enums Sample.group = [] := by
  decide

/-! ## The theorems are about something -/

example : Grammatical Sample.names ∧ NoGroups Sample.names := by decide
example : ((messages Sample.names).filter fun e => e.isExtend = false ∧ ¬ Capitalized e.name).map
    (·.position.line) = [2] := by decide
example : ((enums Sample.names).filter fun e => ¬ Capitalized e.name).map (·.position.line) = [3] := by
  decide
example : ((enumValues Sample.names).filter fun e => ¬ UpperSnakeCase e.name).map (·.position.column) =
    [12] := by decide
example : ((fields Sample.names).filter fun e => ¬ LowerSnakeCase e.name).map (·.position.column) =
    [15] := by decide
example : ((oneofs Sample.names).filter fun e => ¬ LowerSnakeCase e.name).map (·.position.column) =
    [] := by decide
example : ((services Sample.names).filter fun e => ¬ Capitalized e.name).map (·.position.line) = [6] := by
  decide
example : ((rpcs Sample.names).filter fun e => ¬ Capitalized e.name).map (·.position.column) = [13] := by
  decide
example : s%".proto" <:+ Sample.names.filename ∧ ¬ LowerSnakeCase (fileStem Sample.names.filename) := by decide
example : ((packages Sample.names).head?.toList.filter fun p => ¬ PackageLowerCase p.name).map
    (·.position.line) = [1] := by decide

end Verif.Props
