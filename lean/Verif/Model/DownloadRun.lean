import Verif.Model.Downloader

/-!
# Model of processes that use the cache

`cache`, `checkDownloaded`, `downloadInternal` and `Delete`,
internal/protoc/downloader.go:144-263, for any number of processes with the same version,
cache directory and URL, as a step machine. Every process has one `downloader` that one
goroutine uses, so its mutex plays no role. A process can crash at any point; the kernel then
releases its lock. The file lock is held on the inode that was at the path of the lock file
when the process opened it. A file is its content: directories, modes and links are left out.
-/

namespace Verif.Download

open Verif Str Path

/-- The content of the files by path. -/
abbrev Disk := Str → Option Str

/-- `disk` with another content at a path. -/
def Disk.set (disk : Disk) (path : Str) (content : Option Str) : Disk :=
  fun p => if p = path then content else disk p

/-- What the processes have in common: the options, the directory for the version, what a
binary with some content prints for `--version` (`none` if it does not run), and the archives
that may be downloaded. -/
structure Sys where
  opts : Options
  basePath : Str
  answer : Str → Option Str
  offered : List Entry → Prop

/-- The path of the binary, internal/protoc/downloader.go:194. -/
def Sys.binary (s : Sys) : Str := joinPath [s.basePath, s%"bin", s%"protoc"]

/-- `checkDownloaded` returns nil, internal/protoc/downloader.go:192-210. -/
def Sys.good (s : Sys) (disk : Disk) : Bool := accepts s.opts ((disk s.binary).bind s.answer)

/-- Where a process is in `cache`; `inode` is that of the lock file it opened. -/
inductive At where
  /-- before `newFlock` -/
  | idle
  /-- in `TryLockContext` -/
  | waiting (inode : Nat)
  /-- before the first `checkDownloaded` -/
  | locked (inode : Nat)
  /-- in the loop over the archive; `opened`: between `OpenFile` and `Write` -/
  | writing (inode : Nat) (rest : List Entry) (opened : Bool)
  /-- before the second `checkDownloaded` -/
  | written (inode : Nat)
  /-- after a check that returned nil, before the unlock -/
  | checked (inode : Nat)
  /-- on the way out with an error, before the unlock -/
  | failing (inode : Nat)
  | returned
  | failed
  | crashed

/-- The inode a process has locked. -/
def At.holds : At → Option Nat
  | .locked i | .writing i _ _ | .written i | .checked i | .failing i => some i
  | _ => none

/-- Whether the call has not ended. -/
def At.running : At → Bool
  | .returned | .failed | .crashed => false
  | _ => true

/-- The files, the inode at the path of the lock file, and the processes. -/
structure World where
  disk : Disk
  lockFile : Nat
  procs : Nat → At

/-- The process `p` goes on to `a`. -/
def World.go (w : World) (p : Nat) (a : At) : World :=
  { w with procs := fun q => if q = p then a else w.procs q }

/-- The process `p` goes on to `a` and changes a file. -/
def World.put (w : World) (p : Nat) (path : Str) (content : Str) (a : At) : World :=
  { w.go p a with disk := w.disk.set path (some content) }

/-- The steps of the process `p`. -/
inductive StepOf (s : Sys) (p : Nat) : World → World → Prop
  /-- `newFlock` and the opening of the lock file, internal/protoc/downloader.go:167 -/
  | start {w} : w.procs p = .idle → StepOf s p w (w.go p (.waiting w.lockFile))
  /-- the lock is granted, :171 -/
  | acquire {w i} : w.procs p = .waiting i → (∀ q, (w.procs q).holds ≠ some i) →
      StepOf s p w (w.go p (.locked i))
  /-- the lock is not granted in time, or the path cannot be opened, :172 -/
  | timeout {w i} : w.procs p = .waiting i → StepOf s p w (w.go p .failed)
  /-- the first check succeeds, :176 -/
  | found {w i} : w.procs p = .locked i → s.good w.disk = true → StepOf s p w (w.go p (.checked i))
  /-- the first check fails and an archive is downloaded, :177 and :217-228 -/
  | fetch {w i es} : w.procs p = .locked i → s.good w.disk = false → s.offered es →
      StepOf s p w (w.go p (.writing i es false))
  /-- the first check fails and there is no archive, :219 and :227 -/
  | noFetch {w i} : w.procs p = .locked i → s.good w.disk = false → StepOf s p w (w.go p (.failing i))
  /-- a directory, :232-234 -/
  | skip {w i e es} : w.procs p = .writing i (e :: es) false → e.isDir = true →
      StepOf s p w (w.go p (.writing i es false))
  /-- the file is opened and emptied, :235-250 -/
  | truncate {w i e es d} : w.procs p = .writing i (e :: es) false → e.isDir = false →
      e.data = .ok d →
      StepOf s p w (w.put p (writePath s.basePath e) [] (.writing i (e :: es) true))
  /-- the entry cannot be read or the file not be opened, :236-253 -/
  | noFile {w i e es} : w.procs p = .writing i (e :: es) false → e.isDir = false →
      StepOf s p w (w.go p (.failing i))
  /-- the content is written, :257 -/
  | write {w i e es d} : w.procs p = .writing i (e :: es) true → e.data = .ok d →
      StepOf s p w (w.put p (writePath s.basePath e) d (.writing i es false))
  /-- only a part is written, :258 -/
  | noWrite {w i e es d part} : w.procs p = .writing i (e :: es) true → e.data = .ok d →
      part <+: d → StepOf s p w (w.put p (writePath s.basePath e) part (.failing i))
  /-- the end of the loop, :262 -/
  | unpacked {w i} : w.procs p = .writing i [] false → StepOf s p w (w.go p (.written i))
  /-- the second check succeeds, :180 -/
  | verified {w i} : w.procs p = .written i → s.good w.disk = true →
      StepOf s p w (w.go p (.checked i))
  /-- the second check fails, :181 -/
  | rejected {w i} : w.procs p = .written i → s.good w.disk = false →
      StepOf s p w (w.go p (.failing i))
  /-- the unlock and the return of the path, :174 and :188-189 -/
  | ret {w i} : w.procs p = .checked i → StepOf s p w (w.go p .returned)
  /-- the unlock fails, :174 and :483 -/
  | noUnlock {w i} : w.procs p = .checked i → StepOf s p w (w.go p .failed)
  /-- the unlock and the return of an error, :174 -/
  | fail {w i} : w.procs p = .failing i → StepOf s p w (w.go p .failed)
  /-- a crash -/
  | crash {w} : (w.procs p).running = true → StepOf s p w (w.go p .crashed)
  /-- a crash in `Write` -/
  | crashWriting {w i e es d part} : w.procs p = .writing i (e :: es) true → e.data = .ok d →
      part <+: d → StepOf s p w (w.put p (writePath s.basePath e) part .crashed)

/-- A step of one of the processes. -/
def Step (s : Sys) (w w' : World) : Prop := ∃ p, StepOf s p w w'

/-- What `Delete` does, internal/protoc/downloader.go:144-152, one file at a time: it takes no
lock. A lock file that is opened afterwards is a new one. -/
inductive Deletion : World → World → Prop
  | file {w path} : Deletion w { w with disk := w.disk.set path none }
  | lockFile {w} : Deletion w { w with lockFile := w.lockFile + 1 }

/-- Any number of steps. -/
inductive Runs (R : World → World → Prop) : World → World → Prop
  | refl {w} : Runs R w w
  | snoc {w w' w''} : Runs R w w' → R w' w'' → Runs R w w''

/-- A step of a process or of a deletion. -/
def AnyStep (s : Sys) (w w' : World) : Prop := Step s w w' ∨ Deletion w w'

/-- Before any process uses the cache. The files are arbitrary. -/
def World.Start (w : World) : Prop := ∀ p, w.procs p = .idle

/-- Whether `os.RemoveAll(root)` removes the file at a path. -/
def removed (root path : Str) : Bool :=
  path = root || hasPrefix path (if root = s%"/" then root else root ++ s%"/")

/-- `Delete`, internal/protoc/downloader.go:144-152, if `os.RemoveAll` succeeds. -/
def delete (h : Host) (d : Options) (disk : Disk) : Disk × Option Err :=
  match getBasePathNoVersionOSARCH h d with
  | .error e => (disk, some e)
  | .ok basePath => (fun path => if removed basePath path then none else disk path, none)

/-- The path of the lock file, internal/protoc/downloader.go:460-467. -/
def lockPath (basePath : Str) : Str := basePath ++ s%".lock"

end Verif.Download
