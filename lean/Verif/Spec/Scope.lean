import Verif.Spec.Rename
import Verif.Model.Exec

/-! # Specification: the directory a command is given, and the configuration that governs it -/

namespace Verif.Spec

open Verif

/-- The directory that an argument stands for: itself, or the directory of the file. -/
def StandsFor (h : Exec.Host) (arg dir : Str) : Prop :=
  h.stat arg = .ok .dir ∧ dir = File.absClean h.wd arg ∨
    h.stat arg = .ok .regular ∧ dir = File.absClean h.wd (Path.dir arg)

/-- The same configuration governs both directories: they are the same, or the configuration was
given on the command line, or the nearest directory with a configuration file is the same. -/
def SameConfiguration (c : File.Provider) (dir dir' : Str) : Prop :=
  dir = dir' ∨ c.configData ≠ [] ∨
    ∃ root, NearestConfig c.host.stat dir root ∧ NearestConfig c.host.stat dir' root

/-- What is said about the file of this name. -/
def about (name : Str) (failures : List Text.Failure) : List Text.Failure :=
  failures.filter fun f => decide (f.filename = name)

/-- Every directory is listed once, and no two files have the same name in the output. -/
def OwnNames (ps : File.ProtoSet) (absolutePaths : Bool) : Prop :=
  (ps.dirPathToFiles.map (·.1)).Nodup ∧ ((allFiles ps).map (nameIn absolutePaths)).Nodup

end Verif.Spec
