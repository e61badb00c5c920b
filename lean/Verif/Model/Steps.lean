import Verif.Model.Exec

/-!
# `format` as a program of steps

The commands of Model/Exec are functions from the world before to the world after. Here `format` is cut into the
steps between which other processes can do something: compilation, each reading of a file, each writing of a file and
each output. `ioutil.WriteFile` (internal/exec/runner.go:539) opens the file with `O_TRUNC`, which empties it, and then
writes; these are two steps. With `whole` they are taken for one, as they would be if the text went to another file
that is then renamed.
-/

namespace Verif.Exec

open Verif Str

/-- A program. A step does something to the world, and how the program goes on depends on the world before it. -/
inductive Prog (α : Type) : Type where
  | done (o : Outcome α)
  | step (next : World → World) (k : World → Prog α)

/-- Go on with the result unless there was an error. -/
def Prog.bind {α β : Type} : Prog α → (α → Prog β) → Prog β
  | .done (.ok a), f => f a
  | .done (.error e), _ => .done (.error e)
  | .done .crash, _ => .done .crash
  | .step next k, f => .step next fun w => (k w).bind f

/-- One step. -/
def Prog.atomic {α : Type} (r : Run α) : Prog α := .step (fun w => (r w).1) fun w => .done (r w).2

/-- A result of other code, without a step. -/
def Prog.lift {α : Type} : Except Err α → Prog α
  | .ok a => .done (.ok a)
  | .error e => .done (.error (.other e))

/-- The program without other processes. -/
def Prog.run {α : Type} : Prog α → Run α
  | .done o => fun w => (w, o)
  | .step next k => fun w => (k w).run (next w)

/-- `ioutil.WriteFile`: the file is emptied, then filled. -/
def writeFileSteps (h : Host) (whole : Bool) (path data : Str) : Prog Unit :=
  if whole then .atomic (writeFile h path data)
  else .step (fun w => { w with disk := Disk.set w.disk path (some []) }) fun _ => .atomic (writeFile h path data)

/-- `formatFile`, internal/exec/runner.go:516-570. -/
def formatFileSteps (h : Host) (whole : Bool) (srt : SortSlice) (flags : FormatFlags) (m : Meta)
    (f : File.ProtoFile) : Prog Bool :=
  if m.singleFilename ≠ [] ∧ f.path ≠ File.absClean h.wd m.singleFilename then .done (.ok true)
  else
    (Prog.atomic (readFile h f.path)).bind fun input =>
    (Prog.lift (transform h srt (formatParams flags.fix m f.path) input)).bind fun r =>
    if r.2.length > 0 then
      (Prog.atomic (printFailures h f.displayPath m r.2)).bind fun _ => .done (.ok false)
    else if input ≠ r.1 then
      if flags.overwrite then (writeFileSteps h whole f.path r.1).bind fun _ => .done (.ok true)
      else if flags.lintMode then
        (Prog.atomic (printFailures h [] m
          [{ filename := f.displayPath, line := 0, column := 0, lintID := s%"FORMAT_DIFF",
             message := s%"Format returned a diff." }])).bind fun _ => .done (.ok false)
      else if flags.diffMode then
        (Prog.lift (h.diff input r.1 f.displayPath)).bind fun d =>
        (Prog.atomic (write h d)).bind fun _ => .done (.ok false)
      else (Prog.atomic (write h r.1)).bind fun _ => .done (.ok false)
    else if !flags.overwrite && !flags.lintMode && !flags.diffMode then
      (Prog.atomic (write h r.1)).bind fun _ => .done (.ok true)
    else .done (.ok true)

/-- The loops of `format`, internal/exec/runner.go:491-506. -/
def formatFilesSteps (h : Host) (whole : Bool) (srt : SortSlice) (flags : FormatFlags) (m : Meta) :
    List File.ProtoFile → Bool → Prog Bool
  | [], success => .done (.ok success)
  | f :: fs, success =>
    (formatFileSteps h whole srt flags m f).bind fun ok => formatFilesSteps h whole srt flags m fs (success && ok)

/-- `Format`, internal/exec/runner.go:475-511. -/
def formatCmdSteps (h : Host) (whole : Bool) (o : Order) (srt : SortSlice) (args : List Str) (flags : FormatFlags) :
    Prog Unit :=
  if moreThanOneSet [flags.overwrite, flags.diffMode, flags.lintMode] then
    .done (.error (.exit 255 s%"can only set one of overwrite, diff, lint"))
  else
    (Prog.lift (metaOf h (fileOrDir args))).bind fun m =>
    (Prog.atomic (compile h false false false m)).bind fun _ =>
    (formatFilesSteps h whole srt flags m ((dirsUnder o s%"format" m.protoSet).flatMap (·.2)) true).bind fun ok =>
    if !ok then .done (.error (.exit 255 [])) else .done (.ok ())

end Verif.Exec
