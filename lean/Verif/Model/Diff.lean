import Verif.Go.Keyed

/-!
# Model of internal/diff/diff.go

The system's temporary files and the `diff` program are parameters.
-/

namespace Verif.Diff

open Verif Str

/-- The files and their contents by path. -/
abbrev Disk := Str → Option Str

/-- What is asked of the system:

* `tempFile`: `ioutil.TempFile("", "prototool-diff")`, the name of the new file;
* `write`: given a file and data, what is in the file after writing, and the error;
* `close`: the error of closing the file;
* `run`: the program with its arguments on these files, its output on both streams and its error. -/
structure System where
  tempFile : Disk → Except Err Str
  write : (file data : Str) → Str × Option Err
  close : Str → Option Err
  run : List Str → Disk → Str × Option Err

/-- The disk with this content in a file. -/
def setFile (disk : Disk) (path content : Str) : Disk :=
  fun p => if p = path then some content else disk p

/-- `os.Remove` of a file, whose error is ignored. -/
def removeFile (disk : Disk) (path : Str) : Disk :=
  fun p => if p = path then none else disk p

/-- `writeTempFile`, internal/diff/diff.go:66-80. The error of writing comes before that of
closing. -/
def writeTempFile (s : System) (disk : Disk) (data : Str) : Disk × Except Err Str :=
  match s.tempFile disk with
  | .error e => (disk, .error e)
  | .ok file =>
    let written := s.write file data
    let disk := setFile disk file written.1
    match written.2.or (s.close file) with
    | some e => (removeFile disk file, .error e)
    | none => (disk, .ok file)

/-- The text before and after the first line break, the two steps of
`bytes.SplitN(diff, []byte{'\n'}, 3)`. -/
def cutLine : Str → Option (Str × Str)
  | [] => none
  | c :: s =>
    if c = '\n' then some ([], s)
    else (cutLine s).map fun r => (c :: r.1, r.2)

/-- The part of a line from its last tab on, or nothing, internal/diff/diff.go:97-102. -/
def timestamp (line : Str) : Str :=
  match line.reverse.dropWhile (· ≠ '\t') with
  | [] => []
  | _ => '\t' :: (line.reverse.takeWhile (· ≠ '\t')).reverse

/-- `replaceTempFilename`, internal/diff/diff.go:91-109. On Unix `filepath.ToSlash` changes
nothing. -/
def replaceTempFilename (diff filename : Str) : Except Err Str :=
  match cutLine diff with
  | none => .error (s%"got unexpected diff for " ++ filename)
  | some (line0, rest) =>
    match cutLine rest with
    | none => .error (s%"got unexpected diff for " ++ filename)
    | some (line1, rest) =>
      .ok ((s%"--- " ++ (filename ++ s%".orig") ++ timestamp line0) ++ s%"\n" ++
        ((s%"+++ " ++ filename ++ timestamp line1) ++ s%"\n" ++ rest))

/-- `Do`, internal/diff/diff.go:39-64, on a system other than plan9. The second result is what it
returns, the first are the files after that. -/
def run (s : System) (input output filename : Str) (disk : Disk) : Disk × Except Err Str :=
  match writeTempFile s disk input with
  | (disk, .error e) => (disk, .error e)
  | (disk, .ok f1) =>
    match writeTempFile s disk output with
    | (disk, .error e) => (removeFile disk f1, .error e)
    | (disk, .ok f2) =>
      let result := s.run [s%"diff", s%"-u", f1, f2] disk
      let r := if result.1.length > 0 then replaceTempFilename result.1 filename
        else match result.2 with
          | some e => .error e
          | none => .ok []
      (removeFile (removeFile disk f2) f1, r)

end Verif.Diff
