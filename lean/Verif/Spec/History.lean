import Verif.Spec.Cmd
import Verif.Spec.Create
import Verif.Spec.Download
import Verif.Spec.ExecMore

/-!
# Histories of command lines

A user gives one command line after the other. Between them everything outside the files that the
program writes may change: the environment, the settings, the other end of the network.
-/

namespace Verif.Spec

open Verif Str Exec Cmd

/-- A command line, and the system it is run on. -/
structure Line where
  system : System
  usage : Usage
  devel : Bool := false
  parsed : Parsed

/-- The run of a line. -/
def Line.run (l : Line) (w : World) : World × Exit := Cmd.run l.system l.usage l.devel l.parsed w

/-- The lines are run one after the other, whatever the exit codes. -/
def history : List Line → World → World
  | [], w => w
  | l :: ls, w => history ls (l.run w).1

/-- The path of a file that the formatter is to look at. -/
def FormatsPath (h : Host) (args : List Str) (path : Str) : Prop :=
  ∃ m f, Finds h args m ∧ Concerns h m f ∧ f.path = path

/-- A path at which the plugins generate something. -/
def GeneratesPath (h : Host) (args : List Str) (path : Str) : Prop :=
  ∃ m disk, Finds h args m ∧ h.generate disk m.protoSet path ≠ disk path

/-- What a command may change, given the files there are. -/
def MayChange (s : System) (r : Runner) (args : List Str) (f : Cmd.Flags) (disk : Disk) (path : Str) :
    Command → Prop
  | .format => f.overwrite = true ∧ FormatsPath (s.hostOf r) args path
  | .generate => f.dryRun = false ∧ GeneratesPath (s.hostOf r) args path
  | .all => (f.disableFormat = false ∧ FormatsPath (s.hostOf r) args path) ∨
      GeneratesPath (s.hostOf r) args path
  | .create => (∃ a ∈ args, path = located (s.hostOf r) a) ∧ (disk path = none ∨ disk path = some [])
  | .configInit => path = Path.joinPath [args.headD (s.hostOf r).workDirPath, s%"prototool.yaml"] ∧
      disk path = none
  | .descriptorSet =>
      (f.outputPath ≠ [] ∧ f.tmp = false ∧ path = f.outputPath) ∨
      (f.outputPath = [] ∧ f.tmp = true ∧ (s.tools r).tempFile = .ok path)
  | .breakDescriptorSet => f.outputPath ≠ [] ∧ path = f.outputPath
  | .breakCheck => f.descriptorSetPath = [] ∧ ∃ dir, (s.tools r).tempDir = .ok dir ∧ Within path dir
  | .cacheUpdate => ∃ d : Download.Options, d.cachePath = r.cachePath ∧ (s.download d disk).1 path ≠ disk path
  | .cacheDelete => ∃ d cs, d.cachePath = r.cachePath ∧ CacheRoot (s.downloadHost r) d cs ∧
      Within path (absPath cs)
  | _ => False

/-- The line is one that may change what is at the path. -/
def Line.MayChange (l : Line) (disk : Disk) (path : Str) : Prop :=
  ∃ c args values f r, l.parsed = .line c args values ∧ c.parse values initial = some f ∧
    getRunner l.system.environ l.devel f = .ok r ∧ Spec.MayChange l.system r args f disk path c

/-- git and the removal of temporary directories keep to the directory, and the working directory has an
absolute path. -/
structure Line.Orderly (l : Line) : Prop where
  wd : ∀ d, l.system.environ.getwd = .ok d → IsAbsPath d
  tempDir : ∀ r dir, (l.system.tools r).tempDir = .ok dir → IsAbsPath dir
  clone : ∀ r src branch dir d p, ¬Within p dir → ((l.system.tools r).git (cloneArgs src branch dir) d).1 p = d p
  removal : ∀ r dir d p, ¬Within p dir → (l.system.tools r).removeAll dir d p = d p

/-- The line only looks at the files, or is one of the two that make new files. -/
def Line.Keeping (l : Line) : Prop :=
  ∀ c args values f, l.parsed = .line c args values → c.parse values initial = some f →
    OnlyReads c f ∨ c = .create ∨ c = .configInit

/-- The line only looks at the files. -/
def Line.Reading (l : Line) : Prop :=
  ∀ c args values f, l.parsed = .line c args values → c.parse values initial = some f → OnlyReads c f

/-- Everything can be printed. -/
def Line.Printing (l : Line) : Prop := ∀ r, Prints (l.system.host r)

/-- What the line prints when it is run with these files. -/
def Line.text (l : Line) (disk : Disk) : Str := (l.run { disk := disk }).1.out

/-- How it ends then. -/
def Line.exit (l : Line) (disk : Disk) : Exit := (l.run { disk := disk }).2

/-- The files after it. -/
def Line.after (l : Line) (disk : Disk) : Disk := (l.run { disk := disk }).1.disk

end Verif.Spec
