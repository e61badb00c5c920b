import Verif.Go.SortSlice
import Verif.Go.Keyed
import Verif.Model.Descriptor

/-!
# Model of internal/desc/desc.go

`none` is a nil pointer. `sum` stands for `sha256ProtoMessage`
(internal/desc/desc.go:101-108): protobuf marshalling, which may fail, and SHA-256.
-/

namespace Verif.Desc

open Verif Descriptor

/-- The checks of `SortFileDescriptorSet`, internal/desc/desc.go:38-47. -/
def checkNames : List FileDesc → List Str → Except Err (List Str)
  | [], names => .ok names
  | f :: fs, names =>
    if f.name = [] then .error (s%"no name on FileDescriptorProto")
    else if f.name ∈ names then
      .error (s%"duplicate FileDescriptorProto in FileDescriptorSet: " ++ f.name)
    else checkNames fs (setInsert names f.name)

/-- `SortFileDescriptorSet`, internal/desc/desc.go:37-60. -/
def sortFileDescriptorSet (set : FileSet) (target : FileDesc) : Except Err FileSet :=
  match checkNames set [] with
  | .error e => .error e
  | .ok names =>
    if target.name ∈ names then
      .ok ((set.filter fun f => decide (f.name ≠ target.name)) ++ [target])
    else .error (s%"no FileDescriptorProto named " ++ target.name ++ s%" in FileDescriptorSet")

/-- The state of the merge loop: `nameToSum` and `result.File`. -/
structure MergeState where
  nameToSum : GoMap Str Str
  file : List FileDesc

/-- The inner loop of `MergeFileDescriptorSets`, internal/desc/desc.go:75-95. -/
def mergeFiles (sum : FileDesc → Except Err Str) :
    List (Option FileDesc) → MergeState → Except Err MergeState
  | [], st => .ok st
  | none :: _, _ => .error (s%"nil FileDescriptorProto")
  | some f :: fs, st =>
    if f.name = [] then .error (s%"no name on FileDescriptorProto")
    else
      match sum f with
      | .error e => .error e
      | .ok x =>
        match st.nameToSum.get? f.name with
        | some existing =>
          if existing ≠ x then .error (s%"mismatched sums for file " ++ f.name)
          else mergeFiles sum fs st
        | none => mergeFiles sum fs ⟨st.nameToSum.set f.name x, st.file ++ [f]⟩

/-- The outer loop of `MergeFileDescriptorSets`, internal/desc/desc.go:71-96. -/
def mergeSets (sum : FileDesc → Except Err Str) :
    List (Option (List (Option FileDesc))) → MergeState → Except Err MergeState
  | [], st => .ok st
  | none :: _, _ => .error (s%"nil FileDescriptorSet")
  | some fs :: rest, st =>
    match mergeFiles sum fs st with
    | .error e => .error e
    | .ok st => mergeSets sum rest st

/-- `MergeFileDescriptorSets`, internal/desc/desc.go:64-102. -/
def mergeFileDescriptorSets (s : SortSlice) (sum : FileDesc → Except Err Str)
    (sets : List (Option (List (Option FileDesc)))) : Except Err FileSet :=
  if sets.length = 0 then .ok []
  else
    match mergeSets sum sets ⟨[], []⟩ with
    | .error e => .error e
    | .ok st => .ok (s.run (fun a b => Str.lt a.name b.name) st.file)

end Verif.Desc
