import Verif.Spec.Exec
import Verif.Spec.Diff

/-! # Specification: what format prints with --diff and with --lint -/

namespace Verif.Exec

open Verif

/-- The failure for a file that is not formatted. -/
def formatDiff (f : File.ProtoFile) : Text.Failure :=
  { filename := f.displayPath, line := 0, column := 0, lintID := s%"FORMAT_DIFF",
    message := s%"Format returned a diff." }

/-- Differences are made by the system's `diff`, on whatever files there are by then. -/
def DiffsBy (h : Host) (s : Diff.System) : Prop :=
  ∀ before after name, ∃ disk, h.diff before after name = (Diff.run s before after name disk).2

/-- Of two files with these contents, `diff -u` makes this. -/
def DiffOf (s : Diff.System) (before after diff : Str) : Prop :=
  ∃ (disk : Diff.Disk) (f1 f2 : Str), f1 ≠ f2 ∧ disk f1 = some before ∧ disk f2 = some after ∧
    (s.run [s%"diff", s%"-u", f1, f2] disk).1 = diff

end Verif.Exec
