import Verif.Model.Exec

/-!
# What the commands are about, in terms of files
-/

namespace Verif.Exec

open Verif

/-- The file is listed for a directory whose path starts with that of the proto set and, if the
command was given a single file, it is that file. -/
def Concerns (h : Host) (m : Meta) (f : File.ProtoFile) : Prop :=
  (∃ dir files, (dir, files) ∈ m.protoSet.dirPathToFiles ∧ m.protoSet.dirPath <+: dir ∧ f ∈ files) ∧
    (m.singleFilename = [] ∨ f.path = File.absClean h.wd m.singleFilename)

/-- No file is listed twice. -/
def Distinct (m : Meta) : Prop :=
  ((m.protoSet.dirPathToFiles.flatMap fun d => d.2).map fun f => f.path).Nodup

/-- How a file is to be formatted: without `--fix` as it is, with it in the style of the configured
lint group, with the configured header and prefix of Java packages. -/
def formatsAs (fix : Bool) (config : Settings.LintConfig) (path : Str) : Format.Params :=
  if fix then
    { filename := path, fileHeader := config.fileHeader, javaPackagePrefix := config.javaPackagePrefix,
      fix := if config.group = s%"uber2" then Format.fixV2 else Format.fixV1 }
  else { filename := path, fileHeader := [], javaPackagePrefix := [], fix := Format.fixNone }

/-- The formatter makes `text` out of `content`, without failures. -/
def Formats (h : Host) (srt : SortSlice) (fix : Bool) (m : Meta) (path content text : Str) : Prop :=
  ∃ elements, h.parse path content = .ok elements ∧
    Format.transform srt (formatsAs fix m.protoSet.config.lint path) elements = .ok (text, [])

/-- The output takes everything. -/
def Prints (h : Host) : Prop := ∀ out text, h.write out text = (out ++ text, none)

/-- None of the three modes. -/
def FormatFlags.plain (flags : FormatFlags) : Prop :=
  flags.overwrite = false ∧ flags.diffMode = false ∧ flags.lintMode = false

/-- At most one of the three modes. -/
def FormatFlags.AtMostOne (flags : FormatFlags) : Prop :=
  ¬(flags.overwrite = true ∧ flags.diffMode = true) ∧
    ¬(flags.overwrite = true ∧ flags.lintMode = true) ∧
    ¬(flags.diffMode = true ∧ flags.lintMode = true)

/-- What the argument of a command stands for: the proto set of the directory, or of the directory
of the file together with the name of the file. Without exactly one argument it is the current
directory. -/
def Finds (h : Host) (args : List Str) (m : Meta) : Prop :=
  ∃ arg, (args = [arg] ∨ args.length ≠ 1 ∧ arg = s%".") ∧
    (h.stat arg = .ok .dir ∧ h.getForDir h.workDirPath arg = .ok m.protoSet ∧ m.singleFilename = [] ∨
      h.stat arg = .ok .regular ∧ h.getForDir h.workDirPath (Path.dir arg) = .ok m.protoSet ∧
        m.singleFilename = arg)

/-- The setting for the format of errors can be read. -/
def ErrorFormatKnown (h : Host) : Prop :=
  ∃ fields, Text.parseColonSeparatedFailureFields h.errorFormat = some fields

/-- Compilation finds nothing wrong. -/
def Compiles (h : Host) (flags : CompileFlags) (m : Meta) (disk : Disk) : Prop :=
  ∃ sets, h.compile flags disk m.protoSet = .ok ([], sets)

/-- Failures can be printed: the error format is known and, with JSON asked for, they can be
encoded. -/
def CanPrint (h : Host) : Prop :=
  ErrorFormatKnown h ∧ (h.json = true → ∀ f, ∃ t, h.toJSON f = .ok t)

/-- The line of a failure: its JSON form, or the line that C17 is about. -/
def lineOf (h : Host) (f : Text.Failure) : Str :=
  if h.json then
    match h.toJSON f with
    | .ok t => t ++ s%"\n"
    | .error _ => []
  else (Text.fprintln f ((Text.parseColonSeparatedFailureFields h.errorFormat).getD [])).1

/-- The failures a user sees: those about the single file asked for, if there is one. -/
def Shown (h : Host) (m : Meta) (f : Text.Failure) : Prop :=
  m.singleFilename = [] ∨ m.singleFilename = f.filename ∨
    File.absClean h.wd m.singleFilename = File.absClean h.wd f.filename

instance (h : Host) (m : Meta) (f : Text.Failure) : Decidable (Shown h m f) :=
  inferInstanceAs (Decidable (_ ∨ _ ∨ _))

/-- What printing the failures writes. -/
def printed (h : Host) (m : Meta) (failures : List Text.Failure) : Str :=
  ((Text.sortFailures failures).filter fun f => decide (Shown h m f)).flatMap (lineOf h)

end Verif.Exec
