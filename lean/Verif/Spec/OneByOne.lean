import Verif.Spec.Scope
import Verif.Spec.Exec

/-! # Specification: asking for the files of a directory one by one -/

namespace Verif.Spec

open Verif

/-- This argument is the name of this file, and stands for that file. -/
structure NamesFile (h : Exec.Host) (arg : Str) (m : Exec.Meta) (f : File.ProtoFile) : Prop where
  regular : h.stat arg = .ok .regular
  finds : Exec.Finds h [arg] m
  path : File.absClean h.wd arg = f.path
  dir : StandsFor h arg (Path.dir f.path)

/-- One run of a command for each argument, until one does not end well. -/
def oneByOne (command : List Str → Exec.Run Unit) : List Str → Exec.Run Unit
  | [] => Exec.Run.pure ()
  | arg :: args => Exec.Run.bind (command [arg]) fun _ => oneByOne command args

end Verif.Spec
