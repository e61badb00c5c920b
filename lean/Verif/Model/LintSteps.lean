import Verif.Model.Steps

/-!
# `lint` as a program of steps

`lint` compiles, reads all files one after the other (internal/lint/lint.go:428-471), and only then checks them and
prints. Other processes can do something between any two of these.
-/

namespace Verif.Exec

open Verif Str

/-- The files are read, one step for each, internal/lint/lint.go:436-468. The code opens a file, parses it and reads it
again from the start; the two readings of the opened file are one step here, as they are if files are only ever replaced.
That a file that cannot be opened or parsed ends the reading is left out: what is read after it is not looked at. -/
def readEach : List Str → Prog (List (Str × Option Str))
  | [] => .done (.ok [])
  | p :: ps => .step id fun w => (readEach ps).bind fun reads => .done (.ok ((p, w.disk p) :: reads))

/-- The disk as it was read, file by file. -/
def asRead (reads : List (Str × Option Str)) (disk : Disk) : Disk := fun p =>
  match reads.lookup p with
  | some content => content
  | none => disk p

/-- Something is done about what was read. -/
def onRead {α : Type} (reads : List (Str × Option Str)) (r : Run α) : Run α := fun w =>
  (({ (r { w with disk := asRead reads w.disk }).1 with disk := w.disk }), (r { w with disk := asRead reads w.disk }).2)

/-- The files that `lint` reads, in its order, internal/lint/lint.go:430-437. -/
def lintPaths (env : Lint.Env) (m : Meta) : List Str :=
  ((env.order.ord [s%"GetDirPathToDescriptors"]
    (m.protoSet.dirPathToFiles.filter fun p => hasPrefix p.1 m.protoSet.dirPath)).flatMap (·.2)).map (·.path)

/-- Whether only lists are printed, internal/exec/runner.go:315-338; these read no `.proto` file. -/
def LintFlags.lists (flags : LintFlags) : Bool :=
  flags.listAllLintGroups || flags.diffLintGroups ≠ [] || flags.listAllLinters || flags.listLinters ||
    flags.listLintGroup ≠ []

/-- `Lint`, internal/exec/runner.go:314-345. -/
def lintCmdSteps (h : Host) (env : Lint.Env) (srt : SortSlice) (args : List Str) (flags : LintFlags) : Prog Unit :=
  if moreThanOneSet [flags.listAllLinters, flags.listLinters, flags.listAllLintGroups,
      flags.listLintGroup ≠ [], flags.diffLintGroups ≠ [], flags.generateIgnores] ∨ flags.lists then
    .atomic (lintCmd h env srt args flags)
  else
    (Prog.lift (metaOf h (fileOrDir args))).bind fun m =>
    (Prog.atomic (compile h false false false m)).bind fun _ =>
    (readEach (lintPaths env m)).bind fun reads =>
    .atomic (onRead reads (if flags.generateIgnores then generateIgnores h env m else lint h env m))

end Verif.Exec
