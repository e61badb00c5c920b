import Verif.Spec.CreateBreak
import Verif.Spec.Interrupt

/-! # Specification: files that are created and formatted over time -/

namespace Verif.Spec

open Verif Str Proto Format Descriptor Exec Create

/-- The files of a project, each given by the name that it is imported by and its path, what is on the disk, and what
protoc makes of the files. -/
structure Moment where
  files : List (Str × Str)
  disk : Disk
  all : List FileDesc

/-- What `format` needs to keep all declarations: the files fit the grammar, a text it writes is read as the grammar
says, and with `--fix` the header is made of comments and the path and the prefix have no quotes. -/
structure CanFormat (h : Exec.Host) (srt : SortSlice) (fix : Bool) (m : Meta) (files : List (Str × Str)) (disk : Disk) :
    Prop where
  fits : ∀ x ∈ files, ∀ content es, disk x.2 = some content → h.parse x.2 content = .ok es → FileFits es
  fixable : ∀ x ∈ files, Fixable (formatsAs fix m.protoSet.config.lint x.2)
  back : ∀ x ∈ files, ∀ content text, disk x.2 = some content → Formats h srt fix m x.2 content text →
    ReadsBack h x.2 text

/-- One thing done to the files: `create` has made some, or `format` was run, with any flags and however it ended, or
anything happened that left these files alone. Protoc accepts the files before and after. -/
inductive TendedBy (P : Protoc) : Moment → Moment → Prop
  | create (ch : Create.Handler) (h : Exec.Host) (hwd : IsAbsPath h.wd) (paths : List Str) (w w' : World)
      (run : createCmd ch h paths w = (w', .ok ())) (finds : FindsNew ch h paths) (files made : List (Str × Str))
      (among : MadeAmong h paths w.disk files made) (all all' : List FileDesc)
      (before : Described P h files w.disk all) (after : Described P h (files ++ made) w'.disk all') :
      TendedBy P ⟨files, w.disk, all⟩ ⟨files ++ made, w'.disk, all'⟩
  | format (h : Exec.Host) (hw : Writes h) (o : Order) (srt : SortSlice) (args : List Str) (flags : FormatFlags)
      (m : Meta) (hm : Finds h args m) (hd : Distinct m) (w : World) (files : List (Str × Str))
      (names : (files.map Prod.fst).Nodup) (can : CanFormat h srt flags.fix m files w.disk) (all all' : List FileDesc)
      (before : Described P h files w.disk all)
      (after : Described P h files (formatCmd h o srt args flags w).1.disk all') :
      TendedBy P ⟨files, w.disk, all⟩ ⟨files, (formatCmd h o srt args flags w).1.disk, all'⟩
  | other (h : Exec.Host) (files : List (Str × Str)) (disk disk' : Disk) (same : ∀ x ∈ files, disk' x.2 = disk x.2)
      (all all' : List FileDesc) (before : Described P h files disk all) (after : Described P h files disk' all') :
      TendedBy P ⟨files, disk, all⟩ ⟨files, disk', all'⟩

/-- Any number of such things, one after the other. -/
inductive Tended (P : Protoc) : Moment → Moment → Prop
  | start (a : Moment) : Tended P a a
  | step {a b c : Moment} : Tended P a b → TendedBy P b c → Tended P a c

/-- The files of `all` are among those of `all'`, up to the order of imports and to what break check does not look at,
and the others import nothing. -/
structure KeptIn (all all' : List FileDesc) : Prop where
  kept : ∀ f ∈ all, ∃ f' ∈ all', SameFile f f'
  others : ∀ f' ∈ all', (∃ f ∈ all, SameFile f f') ∨ f'.dependency = []

end Verif.Spec
