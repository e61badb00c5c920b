import Verif.Spec.LintReports

/-!
# Specification: where the elements of a file may be

The part of the protobuf grammar that says what may be in what.
-/

namespace Verif.Spec

open Verif Proto Lint

/-- What may be in a message or in a group. -/
def inMessage : Element → Bool
  | .comment _ | .option _ | .message _ _ | .enum _ _ | .normalField _ | .mapField _
  | .oneof _ _ | .reserved _ | .extensions _ | .group _ _ => true
  | _ => false

/-- What may be directly in the innermost of the surrounding nodes, or in the file. -/
def mayBeIn : List Element → Element → Bool
  | [], e => match e with
    | .comment _ | .syntax _ | .package _ | .option _ | .import _ | .message _ _ | .enum _ _
    | .service _ _ => true
    | _ => false
  | .message _ _ :: _, e => inMessage e
  | .group _ _ :: _, e => inMessage e
  | .enum _ _ :: _, e => match e with
    | .comment _ | .option _ | .enumField _ _ | .reserved _ => true
    | _ => false
  | .enumField _ _ :: _, e => match e with
    | .comment _ | .option _ => true
    | _ => false
  | .service _ _ :: _, e => match e with
    | .comment _ | .option _ | .rpc _ _ => true
    | _ => false
  | .rpc _ _ :: _, e => match e with
    | .comment _ | .option _ => true
    | _ => false
  | .oneof _ _ :: _, e => match e with
    | .comment _ | .option _ | .oneofField _ | .group _ _ => true
    | _ => false
  | _ :: _, e => match e with
    | .option _ => true
    | _ => false

/-- Every node of the file is where the grammar allows it. -/
def Grammatical (d : FileDescriptor) : Prop :=
  ∀ n ∈ fileNodes d, mayBeIn n.around n.self = true

/-- The file has no groups (proto3 has none). -/
def NoGroups (d : FileDescriptor) : Prop := ∀ n ∈ fileNodes d, isGroup n.self = false

instance (d : FileDescriptor) : Decidable (Grammatical d) := by unfold Grammatical; infer_instance
instance (d : FileDescriptor) : Decidable (NoGroups d) := by unfold NoGroups; infer_instance

end Verif.Spec
