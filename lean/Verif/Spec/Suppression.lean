import Verif.Spec.Grammar

/-! # Specification: suppression by annotations in comments -/

namespace Verif.Spec

open Verif Proto Lint

/-- The configuration allows suppression and some line of the comment has the annotation
after `@suppresswarnings`. -/
def Suppressed (annotation : Str) (config : Settings.Config) (comment : Option Comment) : Prop :=
  config.lint.allowSuppression = true ∧
    ∃ c, comment = some c ∧ ∃ line ∈ c.lines, s%"@suppresswarnings " ++ annotation <:+: line

instance (annotation : Str) (config : Settings.Config) (comment : Option Comment) :
    Decidable (Suppressed annotation config comment) := by
  unfold Suppressed
  cases comment with
  | none => exact .isFalse (by simp)
  | some c =>
    exact decidable_of_iff (config.lint.allowSuppression = true ∧
      ∃ line ∈ c.lines, s%"@suppresswarnings " ++ annotation <:+: line) (by simp)

/-- The names a node introduces; for an option its name. -/
def namesOf : Element → List Str
  | .package p => [p.name]
  | .option o => [o.name]
  | .message m _ => [m.name]
  | .enum e _ => [e.name]
  | .enumField f _ => [f.name]
  | .service s _ => [s.name]
  | .rpc r _ => [r.name]
  | .normalField f => [f.field.name]
  | .mapField f => [f.field.name]
  | .oneof o _ => [o.name]
  | .oneofField f => [f.name]
  | .group g _ => [g.name]
  | .reserved r => r.fieldNames
  | .comment _ | .syntax _ | .import _ | .extensions _ => []

/-- An option of an RPC with the RPC. -/
def asRPCOption : Node → Option (RPC × Opt)
  | ⟨.rpc r _ :: _, .option o⟩ => some (r, o)
  | _ => none

/-- The options in RPCs of services. -/
def rpcOptions (d : FileDescriptor) : List (RPC × Opt) :=
  (inside (fun e => isService e || isRPC e) d).filterMap asRPCOption

/-- An option of the file or of a service. -/
def asOuterOption : Node → Option Opt
  | ⟨[], .option o⟩ => some o
  | ⟨.service _ _ :: _, .option o⟩ => some o
  | _ => none

/-- The options of the file and of its services. -/
def outerOptions (d : FileDescriptor) : List Opt := (fileNodes d).filterMap asOuterOption

/-- The option is the one the rule is about. -/
def HTTPName (name : Str) : Prop :=
  s%"(google.api.http)" <+: name ∨ s%"(.google.api.http)" <+: name

instance (name : Str) : Decidable (HTTPName name) := by unfold HTTPName; infer_instance

end Verif.Spec
