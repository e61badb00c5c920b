import Verif.Go.Str

/-!
# Go's text/tabwriter

As far as the program uses it: two cells in each row, with the settings of `newTabWriter`,
internal/exec/runner.go:1233-1235 (no minimal width, two blanks between the columns, aligned to the
left). A cell is as wide as it has characters. Cells that contain a tab, a line break or another
character the writer gives a meaning to are not modelled: the program never writes one. The pieces
in which the writer passes its text on are one piece here.
-/

namespace Verif.TabWriter

open Verif

/-- The width of the first column. -/
def width (rows : List (Str × Str)) : Nat := (rows.map (·.1.length)).foldr max 0 + 2

/-- What `Flush` writes after the rows `first cell, tab, second cell, line break`. -/
def table (rows : List (Str × Str)) : Str :=
  rows.flatMap fun row =>
    row.1 ++ List.replicate (width rows - row.1.length) ' ' ++ row.2 ++ s%"\n"

end Verif.TabWriter
