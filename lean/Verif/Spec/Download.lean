import Verif.Model.DownloadRun
import Verif.Spec.Path

/-!
# Specification: the cache for protoc
-/

namespace Verif.Spec

open Verif Str Path Download

/-- The binary in the cache runs and, unless a URL was given, prints the configured version. -/
def Answered (s : Sys) (disk : Disk) : Prop :=
  ∃ content output, disk s.binary = some content ∧ s.answer content = some output ∧
    (s.opts.protocURL = [] → trimSpace output = s%"libprotoc " ++ s.opts.version)

/-- Every file of the archive has its content on the disk. Of entries for the same path the last
one counts. -/
def Unpacked (basePath : Str) (es : List Entry) (disk : Disk) : Prop :=
  ∀ before e after, es = before ++ e :: after → e.isDir = false →
    (∀ e' ∈ after, e'.isDir = false → writePath basePath e' ≠ writePath basePath e) →
    ∃ content, e.data = .ok content ∧ disk (writePath basePath e) = some content

/-- An archive with a binary that is accepted: everything can be read, and the last entry for
the path of the binary has an accepted content. -/
def GoodArchive (s : Sys) (es : List Entry) : Prop :=
  (∀ e ∈ es, e.isDir = false → ∃ d, e.data = .ok d) ∧
  ∃ before e after, es = before ++ e :: after ∧ e.isDir = false ∧
    writePath s.basePath e = s.binary ∧
    (∀ e' ∈ after, e'.isDir = false → writePath s.basePath e' ≠ s.binary) ∧
    ∃ d out, e.data = .ok d ∧ s.answer d = some out ∧
      (s.opts.protocURL = [] → trimSpace out = s%"libprotoc " ++ s.opts.version)

/-- The process is between the lock and the unlock. -/
def InCriticalSection (w : World) (p : Nat) : Prop := (w.procs p).holds ≠ none

/-- A name that does not leave the directory it is joined to. -/
def SafeName (name : Str) : Prop := s%".." ∉ splitChar '/' name

/-- The platforms protoc is downloaded for, with the name in the URL and the names in the
path. -/
def platforms : List ((Str × Str) × Str × Str × Str) :=
  [((s%"darwin", s%"amd64"), s%"osx", s%"Darwin", s%"x86_64"),
   ((s%"linux", s%"amd64"), s%"linux", s%"Linux", s%"x86_64")]

/-- The version in the tag of a release: release candidates have no hyphen before their
number. -/
def TagOf (version tag : Str) : Prop :=
  (∃ before digits, version = before ++ s%"rc-" ++ digits ∧ digits ≠ [] ∧
    (∀ c ∈ digits, isDigit c = true) ∧ tag = before ++ s%"rc" ++ digits) ∨
  ((¬ ∃ before digits, version = before ++ s%"rc-" ++ digits ∧ digits ≠ [] ∧
    (∀ c ∈ digits, isDigit c = true)) ∧ tag = version)

/-- Where the archive comes from and what was obtained: the content of the file named by a `file`
URL, or what a server answered to a request with status 200. With any other status a given URL
yields nothing, which is not an archive. -/
def Obtains (readFile : Str → Except Err Str) (get : Str → Response) (given : Bool) (url data : Str) : Prop :=
  (∃ path, url = s%"file://" ++ path ∧ readFile path = .ok data) ∨
  ((∃ rest, url = s%"http://" ++ rest ∨ url = s%"https://" ++ rest) ∧
    ∃ status body, get url = .answered status body ∧
      (status = 200 ∧ body = .ok data ∨ status ≠ 200 ∧ given = true ∧ data = []))

/-- The components below the home directory (`cacheHome` or `home`) where the default cache is. -/
def defaultBelow (unameS : Str) : List Str :=
  if unameS = s%"Darwin" then [s%"Library", s%"Caches"] else [s%".cache"]

/-- A text that names the absolute path with these components. -/
def Names (text : Str) (cs : List Str) : Prop :=
  isAbs text = true ∧ Components cs ∧ clean text = absPath cs

/-- The components of the root of the cache: the given directory, or a directory `prototool` in
`$XDG_CACHE_HOME`, or else in a directory in `$HOME` that depends on the platform. -/
def CacheRoot (h : Host) (d : Options) (cs : List Str) : Prop :=
  (d.cachePath ≠ [] ∧ Components cs ∧ File.absClean h.wd d.cachePath = absPath cs) ∨
  (d.cachePath = [] ∧ ∃ os unameS unameM, ((h.goos, h.goarch), os, unameS, unameM) ∈ platforms ∧
    ((h.getenv s%"XDG_CACHE_HOME" ≠ [] ∧
        ∃ xs, Names (h.getenv s%"XDG_CACHE_HOME") xs ∧ cs = xs ++ [s%"prototool"]) ∨
     (h.getenv s%"XDG_CACHE_HOME" = [] ∧
        ∃ hs, Names (h.getenv s%"HOME") hs ∧ cs = hs ++ defaultBelow unameS ++ [s%"prototool"])))

/-- The components between the root of the cache and the directories of the versions: a given
directory is not divided by platform. -/
def belowRoot (h : Host) (d : Options) : List Str :=
  (if d.cachePath = [] then
    (platforms.filter fun p => p.1 = (h.goos, h.goarch)).flatMap fun p => [p.2.2.1, p.2.2.2]
  else []) ++ [s%"protobuf"]

/-- The name of the directory: the version, or the sum of the URL if one is given. -/
def directoryName (h : Host) (d : Options) : Str :=
  if d.protocURL = [] then d.version else h.sum d.protocURL

end Verif.Spec
