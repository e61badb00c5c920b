import Verif.Spec.Redistribution

/-! # Specification: files that only add to earlier files -/

namespace Verif.Spec

open Verif Descriptor Reflect

/-- The enum is the same, or has further values. With further values no two values may share a number. -/
inductive EnumGrown : Enum → Enum → Prop
  | same {e} : EnumGrown e e
  | values {name vs vs'} : (vs'.map (·.number)).Nodup → (∀ v ∈ vs, v ∈ vs') → EnumGrown ⟨name, vs⟩ ⟨name, vs'⟩

/-- The service may have further methods. -/
structure ServiceGrown (d d' : ServiceDesc) : Prop where
  name : d'.name = d.name
  methods : ∀ m ∈ d.methods, m ∈ d'.methods

/-- The field is declared as before, and in the oneof of the same name or in none as before. -/
structure FieldStays (oneofs oneofs' : List Str) (f f' : FieldDesc) : Prop where
  name : f'.name = f.name
  number : f'.number = f.number
  label : f'.label = f.label
  type : f'.type = f.type
  typeName : f'.typeName = f.typeName
  oneof : oneofName oneofs' f' = oneofName oneofs f

/-- The message may have further fields, oneofs, enums and messages, and so may those inside it, at any depth. -/
inductive MessageGrown : MessageDesc → MessageDesc → Prop
  | mk {name ns ns' es es' fs fs' os os'} (grown : MessageDesc → MessageDesc) :
      (∀ n ∈ ns, grown n ∈ ns') → (∀ n ∈ ns, MessageGrown n (grown n)) →
      (∀ e ∈ es, ∃ e' ∈ es', EnumGrown e e') →
      (∀ f ∈ fs, ∃ f' ∈ fs', FieldStays os os' f f') →
      (∀ w ∈ os, w ∈ os') →
      MessageGrown (.mk name ns es fs os) (.mk name ns' es' fs' os')

/-- Every package, message, enum and service of `all` is in `all'`, under the same package and in any file, as it was
or with something added. Files and definitions may be added, and definitions moved between files. -/
structure Grown (all all' : List FileDesc) : Prop where
  packages : ∀ f ∈ all, ∃ g ∈ all', g.package = f.package
  messages : ∀ f ∈ all, ∀ x ∈ f.messages, ∃ g ∈ all', g.package = f.package ∧ ∃ y ∈ g.messages, MessageGrown x y
  enums : ∀ f ∈ all, ∀ x ∈ f.enums, ∃ g ∈ all', g.package = f.package ∧ ∃ y ∈ g.enums, EnumGrown x y
  services : ∀ f ∈ all, ∀ x ∈ f.services, ∃ g ∈ all', g.package = f.package ∧ ∃ y ∈ g.services, ServiceGrown x y

/-- Every package, message, enum and service of `all` is in `all'` as it was, under the same package and in any
file. -/
structure KeepsDefinitions (all all' : List FileDesc) : Prop where
  packages : ∀ f ∈ all, ∃ g ∈ all', g.package = f.package
  messages : ∀ f ∈ all, ∀ x ∈ f.messages, ∃ g ∈ all', g.package = f.package ∧ x ∈ g.messages
  enums : ∀ f ∈ all, ∀ x ∈ f.enums, ∃ g ∈ all', g.package = f.package ∧ x ∈ g.enums
  services : ∀ f ∈ all, ∀ x ∈ f.services, ∃ g ∈ all', g.package = f.package ∧ x ∈ g.services

/-- No stable package imports a beta package. -/
def StableOnStable (all : List FileDesc) : Prop :=
  ∀ k q, q ≠ k → Imports all k q → ¬ IsBetaPackage k → ¬ IsBetaPackage q

end Verif.Spec
