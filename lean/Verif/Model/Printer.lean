import Verif.Go.Str

/-!
# Model of internal/buf/buf.go
-/

namespace Verif.Buf

open Verif Str

/-- `Printer`, internal/buf/buf.go:33-37. -/
structure Printer where
  indent : Str
  buffer : Str := []
  indentCount : Nat := 0

/-- `NewPrinter`, internal/buf/buf.go:40-46. -/
def newPrinter (indent : Str) : Printer := { indent := indent }

/-- `Printer.P`, internal/buf/buf.go:49-66. The arguments are given as the strings that
`fmt.Fprint` writes for them. -/
def Printer.p (args : List Str) (v : Printer) : Printer :=
  if args.length = 0 then { v with buffer := v.buffer ++ ['\n'] }
  else
    let lineBuffer := (List.replicate v.indentCount v.indent).flatten ++ args.flatten
    let line := trimRightBy isSpace lineBuffer
    let buffer := if (trimSpace line).length ≠ 0 then v.buffer ++ line else v.buffer
    { v with buffer := buffer ++ ['\n'] }

/-- `Printer.In`, internal/buf/buf.go:69-71. -/
def Printer.in_ (v : Printer) : Printer := { v with indentCount := v.indentCount + 1 }

/-- `Printer.Out`, internal/buf/buf.go:74-79. -/
def Printer.out (v : Printer) : Printer :=
  if v.indentCount > 0 then { v with indentCount := v.indentCount - 1 } else v

end Verif.Buf
