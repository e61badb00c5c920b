import Verif.Model.Diff

/-! # Specification: differences between a file and its formatted text -/

namespace Verif.Spec

open Verif Diff

/-- New temporary files did not exist before. -/
def FreshFiles (s : System) : Prop := ∀ disk file, s.tempFile disk = .ok file → disk file = none

/-- Temporary files can be made and written. -/
def WritesFiles (s : System) : Prop :=
  (∀ disk, ∃ file, s.tempFile disk = .ok file) ∧
    ∀ file data, s.write file data = (data, none) ∧ s.close file = none

/-- A heading of a difference: a name, and from the last tab on the time. -/
def Heading (line name time : Str) : Prop :=
  line = name ++ time ∧ '\n' ∉ line ∧
    (time = [] ∧ '\t' ∉ line ∨ ∃ t, time = '\t' :: t ∧ '\t' ∉ t)

/-- The second text is the first with the names in the first two lines replaced. Times and all
further text are kept. -/
def Renamed (filename diff text : Str) : Prop :=
  ∃ line0 name0 time0 line1 name1 time1 rest,
    diff = line0 ++ s%"\n" ++ line1 ++ s%"\n" ++ rest ∧
    Heading line0 name0 time0 ∧ Heading line1 name1 time1 ∧
    text = s%"--- " ++ filename ++ s%".orig" ++ time0 ++ s%"\n" ++
      s%"+++ " ++ filename ++ time1 ++ s%"\n" ++ rest

/-- The disk with the two texts in two new files. -/
def withTemps (disk : Disk) (f1 f2 input output : Str) : Disk := fun p =>
  if p = f2 then some output else if p = f1 then some input else disk p

end Verif.Spec
