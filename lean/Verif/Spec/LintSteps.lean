import Verif.Model.LintSteps
import Verif.Spec.Together
import Verif.Spec.Scope
import Verif.Spec.ExecNames

/-!
# Specification: `lint` while files are formatted
-/

namespace Verif.Spec

open Verif Exec

/-- The same host, but protoc sees these files. -/
def protocSees (h : Host) (files : Disk) : Host := { h with compile := fun flags _ set => h.compile flags files set }

/-- What the process has printed. -/
def Printed (s : System) (i : Nat) (out : Str) : Prop := ∃ p, s.procs[i]? = some p ∧ p.out = out

/-- All the files that the runs are about are formatted. -/
def AllFormatted (h : Host) (srt : SortSlice) (jobs : List FormatJob) (fix : Bool) (lint : Settings.LintConfig)
    (before after : Disk) : Prop :=
  ∀ path text, Wanted h srt jobs fix lint before path text → after path = some text

end Verif.Spec
