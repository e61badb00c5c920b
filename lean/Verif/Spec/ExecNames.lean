import Verif.Spec.Rename
import Verif.Model.Exec

/-! # Specification: a command run in its working directory -/

namespace Verif.Spec

open Verif Proto

/-- What can be taken for granted of the parser: it yields trees that keep to the grammar and say
correctly where everything is, and it uses the name of the file for nothing else. -/
structure ParserOK (h : Exec.Host) : Prop where
  tree : ∀ filename data elements, h.parse filename data = .ok elements →
    ∀ config, Grammatical ⟨filename, elements, config, data⟩ ∧
      Placed ⟨filename, elements, config, data⟩
  names : ∀ filename data elements, h.parse filename data = .ok elements →
    ∀ ρ : Str → Str, h.parse (ρ filename) data = .ok (renameAll ρ elements)

/-- The command works in the working directory of the process, and the files can be found from
there: no file is the working directory or a directory above it. -/
structure RunsHere (h : Exec.Host) (c : File.Provider) (ps : File.ProtoSet) : Prop where
  wd : h.wd = c.wd
  workDirPath : File.absClean c.wd h.workDirPath = c.wd
  files : ∀ f ∈ allFiles ps, ¬ Within c.wd f.path

end Verif.Spec
