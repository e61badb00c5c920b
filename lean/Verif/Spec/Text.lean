import Verif.Model.Text

/-! # Specification of failure lines and of the failure order -/

namespace Verif.Spec

open Verif Str Text

/-- The known failure fields. -/
def KnownField (field : FailureField) : Prop :=
  field = fieldFilename ∨ field = fieldLine ∨ field = fieldColumn ∨ field = fieldID ∨
    field = fieldMessage

/-- A position as shown to the user: counting starts at 1, so 0 (unset) is shown as 1. -/
def shownPosition (n : Int) : Str := if n = 0 then s%"1" else itoa n

/-- The text of a known field of a failure; empty if the field is not shown. -/
def shownField (f : Failure) (field : FailureField) : Str :=
  if field = fieldFilename then (if f.filename = [] then s%"<input>" else f.filename)
  else if field = fieldLine then shownPosition f.line
  else if field = fieldColumn then shownPosition f.column
  else if field = fieldID then f.lintID
  else if field = fieldMessage then f.message
  else []

/-- The fields used when none are selected. -/
def selectedFields (fields : List FailureField) : List FailureField :=
  if fields = [] then [fieldFilename, fieldLine, fieldColumn, fieldMessage] else fields

/-- The non-empty texts of the selected fields, in order. -/
def shownTexts (f : Failure) (fields : List FailureField) : List Str :=
  (fields.map (shownField f)).filter (· ≠ [])

/-- `f` comes strictly before `g`: by file, then line, column, rule and message. -/
def Before (f g : Failure) : Prop :=
  Str.lt f.filename g.filename = true ∨ (f.filename = g.filename ∧
    (f.line < g.line ∨ (f.line = g.line ∧
      (f.column < g.column ∨ (f.column = g.column ∧
        (Str.lt f.lintID g.lintID = true ∨ (f.lintID = g.lintID ∧
          Str.lt f.message g.message = true)))))))

/-- In order: every failure is before every later one, or equal to it. -/
def InOrder (l : List Failure) : Prop := l.Pairwise fun f g => Before f g ∨ f = g

end Verif.Spec
