import Verif.Model.Steps
import Verif.Spec.Exec

/-!
# Specification: processes that run at the same time

The processes share the disk; each has its own output. In every move one of them does its next step. A process that is
killed does no more steps, so what holds after every number of moves holds of killed processes as well.
-/

namespace Verif.Spec

open Verif Exec

/-- A process: what it has still to do, what it has printed and written. -/
structure Process where
  prog : Prog Unit
  out : Str := []
  writes : List (Str × Str) := []

/-- The disk and the processes. -/
structure System where
  disk : Disk
  procs : List Process

/-- One process does one step. -/
inductive Moves : System → System → Prop
  | mk {s : System} {i : Nat} {p : Process} {next : World → World} {k : World → Prog Unit} :
      s.procs[i]? = some p → p.prog = .step next k →
      Moves s ⟨(next ⟨s.disk, p.out, p.writes⟩).disk, s.procs.set i
        ⟨k ⟨s.disk, p.out, p.writes⟩, (next ⟨s.disk, p.out, p.writes⟩).out, (next ⟨s.disk, p.out, p.writes⟩).writes⟩⟩

/-- Any number of moves. -/
inductive Leads : System → System → Prop
  | refl (s : System) : Leads s s
  | more {s t u : System} : Leads s t → Moves t u → Leads s u

/-- The processes at their beginning. -/
def start (disk : Disk) (progs : List (Prog Unit)) : System := ⟨disk, progs.map fun p => { prog := p }⟩

/-- The process has ended in this way. -/
def Ended (s : System) (i : Nat) (o : Outcome Unit) : Prop := ∃ p, s.procs[i]? = some p ∧ p.prog = .done o

/-- A program that changes no file. -/
def ReadsOnly : Prog Unit → Prop
  | .done _ => True
  | .step next k => ∀ w, (next w).disk = w.disk ∧ ReadsOnly (k w)

/-- A `format --overwrite`, and what it is about. -/
structure FormatJob where
  order : Order
  args : List Str
  flags : FormatFlags
  about : Meta

/-- These are runs of `format --overwrite`, all with or all without `--fix` and with the same settings for lint. -/
structure FormatJobs (h : Host) (jobs : List FormatJob) (fix : Bool) (lint : Settings.LintConfig) : Prop where
  finds : ∀ j ∈ jobs, Finds h j.args j.about
  overwrite : ∀ j ∈ jobs, j.flags.overwrite = true ∧ j.flags.diffMode = false ∧ j.flags.lintMode = false
  fix : ∀ j ∈ jobs, j.flags.fix = fix
  lint : ∀ j ∈ jobs, j.about.protoSet.config.lint = lint

/-- The formatter makes `text` out of `content`, without failures. -/
def FormatsTo (h : Host) (srt : SortSlice) (fix : Bool) (lint : Settings.LintConfig) (path content text : Str) : Prop :=
  ∃ elements, h.parse path content = .ok elements ∧
    Format.transform srt (formatsAs fix lint path) elements = .ok (text, [])

/-- One of the runs is about the file with this path, and this is its formatted text. -/
def Wanted (h : Host) (srt : SortSlice) (jobs : List FormatJob) (fix : Bool) (lint : Settings.LintConfig) (disk : Disk)
    (path text : Str) : Prop :=
  (∃ j ∈ jobs, ∃ f, Concerns h j.about f ∧ f.path = path) ∧
    ∃ content, disk path = some content ∧ FormatsTo h srt fix lint path content text

/-- Every file is as it was or formatted. -/
def Whole (h : Host) (srt : SortSlice) (jobs : List FormatJob) (fix : Bool) (lint : Settings.LintConfig) (before now : Disk) :
    Prop :=
  ∀ path, now path = before path ∨ ∃ text, Wanted h srt jobs fix lint before path text ∧ now path = some text

end Verif.Spec
