import Verif.Go.Json

/-!
# Model of internal/text/text.go
-/

namespace Verif.Text

open Verif Str

/-- `FailureField`, internal/text/text.go:71. The constants :34-42 are 0 to 4. -/
abbrev FailureField := Int

/-- internal/text/text.go:34 -/
abbrev fieldFilename : FailureField := 0
/-- internal/text/text.go:36 -/
abbrev fieldLine : FailureField := 1
/-- internal/text/text.go:38 -/
abbrev fieldColumn : FailureField := 2
/-- internal/text/text.go:40 -/
abbrev fieldID : FailureField := 3
/-- internal/text/text.go:42 -/
abbrev fieldMessage : FailureField := 4

/-- `DefaultFailureFields`, internal/text/text.go:47-52. -/
def defaultFailureFields : List FailureField :=
  [fieldFilename, fieldLine, fieldColumn, fieldMessage]

/-- `_failureFieldToString`, internal/text/text.go:54-60. -/
def failureFieldToString : List (FailureField × Str) :=
  [(fieldFilename, s%"filename"), (fieldLine, s%"line"), (fieldColumn, s%"column"),
   (fieldID, s%"id"), (fieldMessage, s%"message")]

/-- `_stringToFailureField`, internal/text/text.go:61-67. -/
def stringToFailureField : List (Str × FailureField) :=
  [(s%"filename", fieldFilename), (s%"line", fieldLine), (s%"column", fieldColumn),
   (s%"id", fieldID), (s%"message", fieldMessage)]

/-- `FailureField.String`, internal/text/text.go:74-79. -/
def fieldString (f : FailureField) : Str :=
  match failureFieldToString.lookup f with
  | some s => s
  | none => itoa f

/-- `ParseFailureField`, internal/text/text.go:84-90. `none` is the error. -/
def parseFailureField (s : Str) : Option FailureField := stringToFailureField.lookup (toLower s)

/-- `ParseColonSeparatedFailureFields`, internal/text/text.go:93-107. -/
def parseColonSeparatedFailureFields (s : Str) : Option (List FailureField) :=
  if s.length = 0 then some defaultFailureFields
  else (splitChar ':' s).mapM parseFailureField

/-- `Failure`, internal/text/text.go:110-116. -/
structure Failure where
  filename : Str
  line : Int
  column : Int
  lintID : Str
  message : Str
deriving DecidableEq, Repr

/-- What the `switch` of `Fprintln` does for a field, internal/text/text.go:134-182:
`none` is the unknown-field error, `some none` writes nothing, `some (some t)`
writes `t`. -/
def fieldOutput (f : Failure) (field : FailureField) : Option (Option Str) :=
  if field = fieldFilename then
    some (some (if f.filename = [] then s%"<input>" else f.filename))
  else if field = fieldLine then
    let line := itoa f.line
    some (some (if line = s%"0" then s%"1" else line))
  else if field = fieldColumn then
    let column := itoa f.column
    some (some (if column = s%"0" then s%"1" else column))
  else if field = fieldID then
    if f.lintID ≠ [] then some (some f.lintID) else some none
  else if field = fieldMessage then
    if f.message ≠ [] then some (some f.message) else some none
  else none

/-- The loop of `Fprintln`, internal/text/text.go:132-194, for a writer that does
not fail. `out` is what was written so far, `written` the flag of that name. The
result is the final content of the writer and whether the call returned `nil`. -/
def fprintGo (f : Failure) : List FailureField → Str → Bool → Str × Bool
  | [], out, written => (if written then out ++ s%"\n" else out, true)
  | field :: rest, out, written =>
    match fieldOutput f field with
    | none => (out, false)
    | some none => fprintGo f rest out written
    | some (some t) =>
      if rest ≠ [] then fprintGo f rest (out ++ t ++ s%":") true
      else fprintGo f rest (out ++ t) true

/-- `Failure.Fprintln`, internal/text/text.go:127-195. -/
def fprintln (f : Failure) (fields : List FailureField) : Str × Bool :=
  fprintGo f (if fields.length = 0 then defaultFailureFields else fields) [] false

/-- `Failure.String`, internal/text/text.go:198-224. -/
def Failure.string (f : Failure) : Str :=
  let filename := if f.filename = [] then s%"<input>" else f.filename
  let line := if itoa f.line = s%"0" then s%"1" else itoa f.line
  let column := if itoa f.column = s%"0" then s%"1" else itoa f.column
  filename ++ s%":" ++ line ++ s%":" ++ column ++ s%":" ++
    (if f.lintID ≠ [] then f.lintID ++ s%" " else []) ++ f.message

/-- `json.Marshal` of a `*Failure`: the struct tags are those of internal/text/text.go:110-116. -/
def Failure.json (f : Failure) : Str :=
  Json.encodeStruct (Json.stringMember s%"filename" f.filename ++ Json.intMember s%"line" f.line ++
    Json.intMember s%"column" f.column ++ Json.stringMember s%"lint_id" f.lintID ++
    Json.stringMember s%"message" f.message)

/-- The comparison of two non-nil failures, internal/text/text.go:256-283. -/
def lessFailure (f g : Failure) : Bool :=
  if Str.lt f.filename g.filename then true
  else if Str.lt g.filename f.filename then false
  else if f.line < g.line then true
  else if g.line < f.line then false
  else if f.column < g.column then true
  else if g.column < f.column then false
  else if Str.lt f.lintID g.lintID then true
  else if Str.lt g.lintID f.lintID then false
  else Str.lt f.message g.message

/-- `sortFailures.Less`, internal/text/text.go:246-284. `none` is a nil pointer. -/
def less (f g : Option Failure) : Bool :=
  match f, g with
  | none, none => false
  | none, some _ => true
  | some _, none => false
  | some f, some g => lessFailure f g

/-- `SortFailures`, internal/text/text.go:238-240 (`sort.Stable`). -/
def sortFailuresNil (l : List (Option Failure)) : List (Option Failure) :=
  sortBy (fun a b => !less b a) l

/-- `SortFailures` on failures none of which is nil. -/
def sortFailures (l : List Failure) : List Failure := sortBy (fun a b => !lessFailure b a) l

end Verif.Text
