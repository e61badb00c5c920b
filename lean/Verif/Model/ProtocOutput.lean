import Verif.Go.Regexp
import Verif.Go.Strconv
import Verif.Model.File
import Verif.Model.Text

/-!
# Model of how the output of protoc is read

internal/protoc/compiler.go:48-78 and :621-878. The debug and warning logs are left out.
-/

namespace Verif.Protoc

open Verif Str File Text Regexp

/-- `cmdMeta`, internal/protoc/compiler.go:925-931. The `exec.Cmd` is its path and its
arguments. -/
structure CmdMeta where
  protocPath : Str
  args : List Str
  protoSet : ProtoSet
  dirPath : Str
  protoFiles : List ProtoFile
  descriptorSetTempFilePath : Str

/-- `getDisplayFilePath`, internal/protoc/compiler.go:861-878, with the loop variable
`matchingFile`. `none` is the error. -/
def getDisplayFilePath (files : List ProtoFile) (match_ : Str) (matchingFile : Str) : Option Str :=
  match files with
  | [] => if matchingFile = [] then none else some matchingFile
  | f :: fs =>
    if hasSuffix f.displayPath match_ then
      if matchingFile ≠ [] then none else getDisplayFilePath fs match_ f.displayPath
    else getDisplayFilePath fs match_ matchingFile

/-- `bestFilePath`, internal/protoc/compiler.go:851-857. -/
def bestFilePath (m : CmdMeta) (match_ : Str) : Str :=
  (getDisplayFilePath m.protoFiles match_ []).getD match_

/-- A failure that has only a message. -/
def plain (message : Str) : Failure := ⟨[], 0, 0, [], message⟩

/-- A failure of a file. -/
def inFile (filename message : Str) : Failure := ⟨filename, 0, 0, [], message⟩

/-- `handleUninterpretedProtocLine`, internal/protoc/compiler.go:833-839. -/
def handleUninterpretedProtocLine (protocLine : Str) : Failure := plain protocLine

/-- The failure at a line and a column given as text, or the uninterpreted line if one of
them is no number, as in internal/protoc/compiler.go:665-678 and the like. -/
def located (m : CmdMeta) (protocLine file line column message : Str) : Failure :=
  match atoi line, atoi column with
  | some l, some c => ⟨bestFilePath m file, l, c, [], message⟩
  | _, _ => handleUninterpretedProtocLine protocLine

/-- `pluginFailedRegexp`, internal/protoc/compiler.go:50. -/
def pluginFailedRegexp : Exp := {
  pieces := [(0, .lit s%"--"), (0, .star), (0, .lit s%"_out: protoc-gen-"), (1, .star),
    (0, .lit s%": Plugin failed with status code "), (2, .star), (0, .any)] }

/-- `otherPluginFailureRegexp`, internal/protoc/compiler.go:51. -/
def otherPluginFailureRegexp : Exp := {
  pieces := [(0, .lit s%"--"), (1, .star), (0, .lit s%"_out: "), (2, .star)] }

/-- `fullPluginFailedRegexp`, internal/protoc/compiler.go:53. -/
def fullPluginFailedRegexp : Exp := {
  fromStart := false
  pieces := [(1, .star), (0, .lit s%"--"), (0, .star), (0, .lit s%"_out: protoc-gen-"), (2, .star),
    (0, .lit s%": Plugin failed with status code "), (3, .star), (0, .any)] }

/-- The start `^(.*):(\d+):(\d+): ` of several expressions. -/
def position : List (Nat × Piece) :=
  [(1, .star), (0, .lit s%":"), (2, .digits), (0, .lit s%":"), (3, .digits), (0, .lit s%": ")]

/-- `extraImport3110Regexp`, internal/protoc/compiler.go:56. -/
def extraImport3110Regexp : Exp := {
  pieces := position ++ [(0, .lit s%"warning: Import "), (4, .star), (0, .lit s%" is unused"),
    (0, .any)] }

/-- `extraImport380Regexp`, internal/protoc/compiler.go:58. -/
def extraImport380Regexp : Exp := {
  pieces := position ++ [(0, .lit s%"warning: Import "), (4, .star), (0, .lit s%" but not used"),
    (0, .any)] }

/-- `extraImportRegexp`, internal/protoc/compiler.go:59. -/
def extraImportRegexp : Exp := {
  pieces := [(1, .star), (0, .lit s%": warning: Import "), (2, .star), (0, .lit s%" but not used"),
    (0, .any)] }

/-- `recursiveImport380Regexp`, internal/protoc/compiler.go:61. -/
def recursiveImport380Regexp : Exp := {
  pieces := position ++ [(0, .lit s%"File recursively imports itself: "), (4, .star)] }

/-- `recursiveImportRegexp`, internal/protoc/compiler.go:62. -/
def recursiveImportRegexp : Exp := {
  pieces := [(1, .star), (0, .lit s%": File recursively imports itself: "), (2, .star)] }

/-- `directoryDoesNotExistRegexp`, internal/protoc/compiler.go:63. -/
def directoryDoesNotExistRegexp : Exp := {
  pieces := [(1, .star), (0, .lit s%": warning: directory does not exist"), (0, .any)] }

/-- `fileNotFoundRegexp`, internal/protoc/compiler.go:64. -/
def fileNotFoundRegexp : Exp := {
  pieces := [(1, .star), (0, .lit s%": File not found"), (0, .any)] }

/-- `importNotFoundRegexp`, internal/protoc/compiler.go:67. -/
def importNotFoundRegexp : Exp := {
  pieces := [(1, .star), (0, .lit s%": Import "), (2, .star),
    (0, .lit s%" was not found or had errors"), (0, .any)] }

/-- `noSyntaxSpecifiedRegexp`, internal/protoc/compiler.go:68. -/
def noSyntaxSpecifiedRegexp : Exp := {
  fromStart := false
  pieces := [(0, .lit s%"No syntax specified for the proto file: "), (1, .star),
    (0, .lit s%". Please use")]
  toEnd := false }

/-- `jsonCamelCase380Regexp`, internal/protoc/compiler.go:70. -/
def jsonCamelCase380Regexp : Exp := {
  pieces := position ++ [(4, .lit s%"The JSON camel-case name of field"), (4, .star)] }

/-- `jsonCamelCaseRegexp`, internal/protoc/compiler.go:71. -/
def jsonCamelCaseRegexp : Exp := {
  pieces := [(1, .star), (0, .lit s%": "), (2, .lit s%"The JSON camel-case name of field"),
    (2, .star)] }

/-- `isNotDefinedRegexp`, internal/protoc/compiler.go:72. -/
def isNotDefinedRegexp : Exp := {
  pieces := [(1, .star), (0, .lit s%": "), (2, .star), (0, .lit s%" is not defined"), (0, .any)] }

/-- `seemsToBeDefinedRegexp`, internal/protoc/compiler.go:73. -/
def seemsToBeDefinedRegexp : Exp := {
  pieces := [(1, .star), (0, .lit s%": "), (2, .lit s%"\""), (2, .star),
    (2, .lit s%"\" seems to be defined in \""), (2, .star),
    (2, .lit s%"\", which is not imported by \""), (2, .star), (2, .lit s%"\""), (2, .any),
    (2, .lit s%" To use it here, please add the necessary import"), (2, .any)] }

/-- `explicitDefaultValuesProto3Regexp`, internal/protoc/compiler.go:74. -/
def explicitDefaultValuesProto3Regexp : Exp := {
  pieces := [(1, .star), (0, .lit s%": Explicit default values are not allowed in proto3"),
    (0, .any)] }

/-- `optionValueRegexp`, internal/protoc/compiler.go:75. -/
def optionValueRegexp : Exp := {
  pieces := [(1, .star), (0, .lit s%": Error while parsing option value for "), (2, .star)] }

/-- `programNotFoundRegexp`, internal/protoc/compiler.go:76. -/
def programNotFoundRegexp : Exp := {
  fromStart := false
  pieces := [(0, .lit s%"protoc-gen-"), (1, .star),
    (0, .lit s%": program not found or is not executable")] }

/-- `firstEnumValueZeroRegexp`, internal/protoc/compiler.go:77. -/
def firstEnumValueZeroRegexp : Exp := {
  pieces := [(1, .star), (0, .lit s%": The first enum value must be zero in proto3"), (0, .any)] }

/-- An `if matches := …; len(matches) > n { return … }` of `parseProtocLine`: the expression,
and what is returned given the command, the line and the groups. Every expression has the
groups its `if` asks for, so that the length test is the match test. -/
structure Rule where
  exp : Exp
  act : CmdMeta → Str → (Nat → Str) → Option Failure

/-- The first rule that matches decides. -/
def firstRule (m : CmdMeta) (line : Str) : List Rule → Option (Option Failure)
  | [] => none
  | r :: rs =>
    match r.exp.find line with
    | some g => some (r.act m line g)
    | none => firstRule m line rs

/-- The text of internal/protoc/compiler.go:677. -/
def importNotUsed (imp : Str) : Str := s%"Import \"" ++ imp ++ s%"\" was not used."

/-- An unused import, internal/protoc/compiler.go:662-707. -/
def unusedImport (m : CmdMeta) (f : Failure) : Option Failure :=
  if m.protoSet.config.compile.allowUnusedImports then none else some f

/-- The rules before the line is split, internal/protoc/compiler.go:637-651. -/
def pluginRules : List Rule := [
  ⟨pluginFailedRegexp, fun _ _ g =>
    some (plain (s%"protoc-gen-" ++ g 1 ++ s%" failed with status code " ++ g 2 ++ s%"."))⟩,
  ⟨otherPluginFailureRegexp, fun _ _ g =>
    some (plain (s%"protoc-gen-" ++ g 1 ++ s%": " ++ g 2))⟩,
  ⟨fullPluginFailedRegexp, fun _ _ g =>
    some (plain (s%"protoc-gen-" ++ g 2 ++ s%" failed with status code " ++ g 3 ++ s%": " ++ g 1))⟩]

/-- The rules for lines that are not of four parts, internal/protoc/compiler.go:654-804. -/
def lineRules : List Rule := [
  ⟨noSyntaxSpecifiedRegexp, fun m _ g => some (inFile (bestFilePath m (g 1))
    s%"No syntax specified. Please use 'syntax = \"proto2\";' or 'syntax = \"proto3\";' to specify a syntax version.")⟩,
  ⟨extraImport3110Regexp, fun m line g =>
    unusedImport m (located m line (g 1) (g 2) (g 3) (importNotUsed (g 4)))⟩,
  ⟨extraImport380Regexp, fun m line g =>
    unusedImport m (located m line (g 1) (g 2) (g 3) (importNotUsed (g 4)))⟩,
  ⟨extraImportRegexp, fun m _ g =>
    unusedImport m (inFile (bestFilePath m (g 1)) (importNotUsed (g 2)))⟩,
  ⟨recursiveImport380Regexp, fun m line g => some (located m line (g 1) (g 2) (g 3)
    (s%"File recursively imports itself " ++ g 4 ++ s%"."))⟩,
  ⟨recursiveImportRegexp, fun m _ g => some (inFile (bestFilePath m (g 1))
    (s%"File recursively imports itself " ++ g 2 ++ s%"."))⟩,
  ⟨directoryDoesNotExistRegexp, fun _ _ g =>
    some (plain (s%"Directory \"" ++ g 1 ++ s%"\" does not exist."))⟩,
  ⟨fileNotFoundRegexp, fun _ _ g =>
    some (plain (s%"Import \"" ++ g 1 ++ s%"\" was not found."))⟩,
  ⟨explicitDefaultValuesProto3Regexp, fun m _ g => some (inFile (bestFilePath m (g 1))
    s%"Explicit default values are not allowed in proto3.")⟩,
  ⟨importNotFoundRegexp, fun _ _ _ => none⟩,
  ⟨jsonCamelCase380Regexp, fun m line g => some (located m line (g 1) (g 2) (g 3) (g 4))⟩,
  ⟨jsonCamelCaseRegexp, fun m _ g => some (inFile (bestFilePath m (g 1)) (g 2))⟩,
  ⟨isNotDefinedRegexp, fun m _ g =>
    some (inFile (bestFilePath m (g 1)) (g 2 ++ s%" is not defined."))⟩,
  ⟨seemsToBeDefinedRegexp, fun m _ g => some (inFile (bestFilePath m (g 1)) (g 2))⟩,
  ⟨optionValueRegexp, fun m _ g => some (inFile (bestFilePath m (g 1))
    (s%"Error while parsing option value for " ++ g 2))⟩,
  ⟨programNotFoundRegexp, fun _ _ g =>
    some (plain (s%"protoc-gen-" ++ g 1 ++ s%" not found or is not executable."))⟩,
  ⟨firstEnumValueZeroRegexp, fun m _ g => some (inFile (bestFilePath m (g 1))
    s%"The first enum value must be zero in proto3.")⟩]

/-- `parseProtocLine`, internal/protoc/compiler.go:636-831. `none` is nil. -/
def parseProtocLine (m : CmdMeta) (protocLine : Str) : Option Failure :=
  match firstRule m protocLine pluginRules with
  | some r => r
  | none =>
    match splitChar ':' protocLine with
    | [file, line, column, message] =>
      let message := trimSpace message
      if message = [] then some (handleUninterpretedProtocLine protocLine)
      else some (located m protocLine file line column message)
    | _ =>
      match firstRule m protocLine lineRules with
      | some r => r
      | none => some (handleUninterpretedProtocLine protocLine)

/-- `parseProtocOutput`, internal/protoc/compiler.go:623-634. -/
def parseProtocOutput (m : CmdMeta) (output : Str) : List Failure :=
  (splitChar '\n' (trimSpace output)).filterMap fun line =>
    let line := trimSpace line
    if line ≠ [] then parseProtocLine m line else none

end Verif.Protoc
