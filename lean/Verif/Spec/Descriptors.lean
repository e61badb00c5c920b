import Verif.Model.Descriptor
import Verif.Go.Keyed

/-!
# File descriptor sets: vocabulary
-/

namespace Verif.Spec

open Verif Descriptor

/-- An encoding of files (protobuf marshalling, possibly followed by SHA-256) that
succeeds on the given files and never maps two different ones to the same bytes. -/
structure FaithfulOn (encode : FileDesc → Except Err Str) (files : FileDesc → Prop) : Prop where
  total : ∀ f, files f → ∃ x, encode f = .ok x
  injective : ∀ f g x, files f → files g → encode f = .ok x → encode g = .ok x → f = g

/-- The file is in one of the (possibly nil) sets. -/
def InSets (sets : List (Option (List (Option FileDesc)))) (f : FileDesc) : Prop :=
  ∃ set, some set ∈ sets ∧ some f ∈ set

/-- No nil sets and no nil files. -/
def NoNil (sets : List (Option (List (Option FileDesc)))) : Prop :=
  none ∉ sets ∧ ∀ set, some set ∈ sets → none ∉ set

/-- Every file has a name, and files with equal names are equal. -/
def Mergeable (sets : List (Option (List (Option FileDesc)))) : Prop :=
  NoNil sets ∧ (∀ f, InSets sets f → f.name ≠ []) ∧
  ∀ f g, InSets sets f → InSets sets g → f.name = g.name → f = g

/-- What the commands that write descriptor sets write: the set with every compiled file once, by name. -/
def IsMerged (sets : List FileSet) (set : FileSet) : Prop :=
  (set.Pairwise fun a b => Str.lt a.name b.name = true) ∧ ∀ f, f ∈ set ↔ f ∈ sets.flatten

end Verif.Spec
