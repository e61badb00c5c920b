import Verif.Spec.Exec

/-! # Specification: commands that are stopped in the middle

A command that is killed leaves the disk as its writes up to then left it. `ioutil.WriteFile` empties the file and
then fills it, so a command that is killed in a write leaves a beginning of the text.
-/

namespace Verif.Spec

open Verif Exec

/-- The disk after these writes. -/
def afterWrites (disk : Disk) : List (Str × Str) → Disk
  | [] => disk
  | (path, text) :: writes => afterWrites (Disk.set disk path (some text)) writes

/-- The disk at a moment between two of the writes, or before the first or after the last. -/
def StoppedBetween (disk : Disk) (writes : List (Str × Str)) (left : Disk) : Prop :=
  ∃ done rest, writes = done ++ rest ∧ left = afterWrites disk done

/-- The disk at a moment in one of the writes. -/
def StoppedIn (disk : Disk) (writes : List (Str × Str)) (left : Disk) (path text : Str) : Prop :=
  ∃ done rest begun, writes = done ++ (path, text) :: rest ∧ begun <+: text ∧
    left = Disk.set (afterWrites disk done) path (some begun)

/-- No write fails. -/
def Writes (h : Host) : Prop := ∀ path text, h.writeFile path text = .ok ()

end Verif.Spec
