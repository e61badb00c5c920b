import Verif.Model.ExecMore
import Verif.Spec.Exec
import Verif.Spec.Path

/-!
# What the commands of Verif.Model.ExecMore are about
-/

namespace Verif.Exec

open Verif Descriptor Spec

/-- What the argument of a command stands for compiles, to these descriptor sets. -/
def CompilesTo (h : Host) (args : List Str) (flags : CompileFlags) (disk : Disk) (m : Meta)
    (sets : List FileSet) : Prop :=
  Finds h args m ∧ ErrorFormatKnown h ∧ h.compile flags disk m.protoSet = .ok ([], sets)

/-- How git is to be called: a shallow clone of the branch or tag, if one is given, of the repository
in `src` into `dir`. -/
def cloneArgs (src branch dir : Str) : List Str :=
  if branch = [] then [s%"clone", s%"--depth", s%"1", s%"file://" ++ src, dir]
  else [s%"clone", s%"--depth", s%"1", s%"--branch", branch, s%"file://" ++ src, dir]

/-- Temporary directories are new, git puts the clone into the directory it is given and touches
nothing else, and removing a directory removes what is in it and nothing else. -/
structure TempDirsOK (t : Tools) (disk : Disk) : Prop where
  isAbs : ∀ dir, t.tempDir = .ok dir → IsAbsPath dir
  fresh : ∀ dir, t.tempDir = .ok dir → ∀ p, Within p dir → disk p = none
  clone : ∀ src branch dir d p, ¬Within p dir → (t.git (cloneArgs src branch dir) d).1 p = d p
  removed : ∀ dir d p, Within p dir → t.removeAll dir d p = none
  kept : ∀ dir d p, ¬Within p dir → t.removeAll dir d p = d p

/-- Cloning the repository of the working directory ends without an error: the directory with the
clone, and the files after it. -/
def Clones (h : Host) (t : Tools) (branch : Str) (disk : Disk) (dir : Str) (disk' : Disk) : Prop :=
  h.stat (Path.joinPath [File.absClean h.wd h.workDirPath, s%".git"]) = .ok .dir ∧
  t.tempDir = .ok dir ∧
  t.git (cloneArgs (File.absClean h.wd h.workDirPath) branch dir) (Disk.set disk dir (some [])) = (disk', none)

/-- git ends with an error. -/
def CloneFails (h : Host) (t : Tools) (branch : Str) (disk : Disk) (dir : Str) (disk' : Disk)
    (output : Str) : Prop :=
  h.stat (Path.joinPath [File.absClean h.wd h.workDirPath, s%".git"]) = .ok .dir ∧
  t.tempDir = .ok dir ∧
  t.git (cloneArgs (File.absClean h.wd h.workDirPath) branch dir) (Disk.set disk dir (some [])) =
    (disk', some output)

/-- The line of a failure of break check: its JSON form or its message. -/
def breakLine (h : Host) (f : Text.Failure) : Str :=
  if h.json then
    match h.toJSON f with
    | .ok t => t ++ s%"\n"
    | .error _ => []
  else if f.message = [] then [] else f.message ++ s%"\n"

/-- The lines of the failures, sorted. -/
def breakLines (h : Host) (failures : List Text.Failure) : Str :=
  (Text.sortFailures failures).flatMap (breakLine h)

/-- How break check ends. -/
def breakOutcome (failures : List Text.Failure) : Outcome Unit :=
  if failures = [] then .ok () else .error (.exit 255 [])

/-- One name on each line. -/
def nameLines (names : List Str) : Str := names.flatMap (· ++ s%"\n")

/-- The names in increasing order, each once. -/
def Listing (names : List Str) (P : Str → Prop) : Prop :=
  names.Pairwise (fun a b => Str.lt a b = true) ∧ ∀ n, n ∈ names ↔ P n

end Verif.Exec
