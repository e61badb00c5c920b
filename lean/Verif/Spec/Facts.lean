import Verif.Spec.Breaking

/-!
# Specification: the statements of a schema

What a schema says about its users' data and calls, as single statements, each about one definition.
-/

namespace Verif.Spec

open Verif Reflect

/-- One statement. A definition is named by its package, the path of message names it is in, and its own name. -/
inductive Fact where
  /-- there is such a package -/
  | package (package : Str)
  /-- there is such a message -/
  | message (package : Str) (path : List Str)
  /-- the field with this number has this name, label and type, the definition it refers to if its type is one, and is
  in this oneof (or in none) -/
  | field (package : Str) (path : List Str) (number : Int) (name : Str) (label type : Int) (refersTo : Str)
      (oneof : Option Str)
  /-- the message has such a oneof -/
  | oneof (package : Str) (path : List Str) (name : Str)
  /-- there is such an enum -/
  | enum (package : Str) (scope : List Str) (name : Str)
  /-- the number is known under this name in the enum -/
  | value (package : Str) (scope : List Str) (enum : Str) (number : Int) (name : Str)
  /-- there is such a service -/
  | service (package : Str) (name : Str)
  /-- the service has this method, with its request, response and streaming -/
  | method (package : Str) (service : Str) (method : Method)

/-- The package a statement is about. -/
def Fact.about : Fact → Str
  | .package p | .message p _ | .field p _ _ _ _ _ _ _ | .oneof p _ _ | .enum p _ _ | .value p _ _ _ _ | .service p _
  | .method p _ _ => p

/-- The statement is true of a package. -/
def Fact.trueOf (q : Package) : Fact → Prop
  | .package _ => True
  | .message _ path => ∃ m, MessageAt q.messages path m
  | .field _ path number name label type refersTo inOneof =>
    ∃ m, MessageAt q.messages path m ∧ oneofOf m number = inOneof ∧
      ∃ f ∈ m.fields, f.number = number ∧ f.name = name ∧ f.label = label ∧ f.type = type ∧
        (NamesType type → f.typeName = refersTo)
  | .oneof _ path name => ∃ m, MessageAt q.messages path m ∧ ∃ w ∈ m.oneofs, w.name = name
  | .enum _ scope name => ∃ e, EnumAt q scope e ∧ e.name = name
  | .value _ scope inEnum number name => ∃ e, EnumAt q scope e ∧ e.name = inEnum ∧ knownAs e number = some name
  | .service _ name => ∃ s ∈ q.services, s.name = name
  | .method _ inService m => ∃ s ∈ q.services, s.name = inService ∧ m ∈ s.methods

/-- The schema states the fact. -/
def States (ps : PackageSet) (fact : Fact) : Prop := ∃ q ∈ ps, q.name = fact.about ∧ fact.trueOf q

/-- What `old` states about the packages selected by `scope`, `new` states as well. -/
def StatesAll (scope : Str → Prop) (old new : PackageSet) : Prop :=
  ∀ fact : Fact, scope fact.about → States old fact → States new fact

end Verif.Spec
