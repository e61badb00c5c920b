import Verif.Spec.ExecCompile

/-! # Specification: the lines of `files` and what the other commands do -/

namespace Verif.Spec

open Verif Str Exec

/-- `files` prints these lines, ends well and does nothing else. -/
def FilesPrints (h : Host) (o : Order) (args : List Str) (w : World) (lines : List Str) : Prop :=
  filesCmd h o args w = ({ w with out := w.out ++ lines.flatMap (· ++ s%"\n") }, .ok ())

/-- The file a printed line leads to from the working directory. -/
def fileAt (h : Host) (line : Str) : Str := File.absClean h.wd line

/-- A run of protoc is about the files of these lines: it gets include directories, an output, and their paths. -/
def RunsOn (h : Host) (cmd : Protoc.CmdMeta) (lines : List Str) : Prop :=
  ∃ includes out : List Str, (out = [s%"-o", s%"/dev/null"] ∨ out = [s%"-o", s%"nul"]) ∧
    cmd.args = (includes.flatMap fun i => [s%"-I", i]) ++ out ++ lines.map (fileAt h)

end Verif.Spec
