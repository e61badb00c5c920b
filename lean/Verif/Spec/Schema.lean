import Verif.Model.ReflectTypes
import Verif.Spec.Version

/-!
# Protobuf schemas

Vocabulary for statements about schemas (package sets): where an element lives, and
which schemas protoc accepts. Nothing here refers to the code.
-/

namespace Verif.Spec

open Verif Reflect

/-- The message `m` is found in the scope `ms` under the given path of names:
`["Foo", "Bar"]` is the message `Bar` nested in the message `Foo`. -/
inductive MessageAt : List Message → List Str → Message → Prop
  | here {ms m} : m ∈ ms → MessageAt ms [m.name] m
  | inside {ms m path n} : m ∈ ms → MessageAt m.nestedMessages path n →
      MessageAt ms (m.name :: path) n

/-- The enum `e` is declared in the package, in the scope given by a path of message
names (the empty path is the package itself). -/
inductive EnumAt (p : Package) : List Str → Enum → Prop
  | top {e} : e ∈ p.enums → EnumAt p [] e
  | nested {path m e} : MessageAt p.messages path m → e ∈ m.nestedEnums → EnumAt p path e

/-- The path names a scope of the package: the package itself or a message. -/
def ScopeAt (p : Package) (path : List Str) : Prop :=
  path = [] ∨ ∃ m, MessageAt p.messages path m

/-- The dotted full name of an element. -/
def fullName (package : Str) : List Str → Str
  | [] => package
  | n :: path => fullName (package ++ s%"." ++ n) path

/-- Field types that refer to another definition: group, message and enum. -/
def NamesType (type : Int) : Prop := type = 10 ∨ type = 11 ∨ type = 14

/-- The name of the oneof holding the field number. -/
def oneofOf (m : Message) (number : Int) : Option Str :=
  (m.oneofs.find? fun w => number ∈ w.fieldNumbers).map (·.name)

/-- The name under which an enum number is known. With `allow_alias` several values
share a number; the one listed last counts. -/
def knownAs (e : Enum) (number : Int) : Option Str :=
  ((e.values.filter fun v => v.number = number).getLast?).map (·.name)

/-- What protoc ensures of a message, its nested messages aside. -/
structure MessageOK (m : Message) : Prop where
  nested_names : (m.nestedMessages.map Message.name).Nodup
  enum_names : (m.nestedEnums.map (·.name)).Nodup
  field_numbers : (m.fields.map (·.number)).Nodup
  oneof_names : (m.oneofs.map (·.name)).Nodup
  /-- oneofs hold fields of the message -/
  oneof_fields : ∀ w ∈ m.oneofs, ∀ n ∈ w.fieldNumbers, ∃ f ∈ m.fields, f.number = n
  /-- a field is in at most one oneof -/
  oneof_unique : ∀ w ∈ m.oneofs, ∀ w' ∈ m.oneofs, ∀ n ∈ w.fieldNumbers, n ∈ w'.fieldNumbers → w = w'
  labels : ∀ f ∈ m.fields, 1 ≤ f.label ∧ f.label ≤ 3
  types : ∀ f ∈ m.fields, 1 ≤ f.type ∧ f.type ≤ 18
  type_names : ∀ f ∈ m.fields, NamesType f.type → f.typeName ≠ []

/-- What protoc and the reflection step ensure of a package. -/
structure PackageOK (p : Package) : Prop where
  name : p.name ≠ []
  message_names : (p.messages.map Message.name).Nodup
  messages : ∀ path m, MessageAt p.messages path m → MessageOK m
  enum_names : (p.enums.map (·.name)).Nodup
  service_names : (p.services.map (·.name)).Nodup
  method_names : ∀ s ∈ p.services, (s.methods.map (·.name)).Nodup

/-- What protoc and the reflection step ensure of a schema: names and numbers
identify elements, and references resolve. -/
structure SchemaOK (ps : PackageSet) : Prop where
  names : (ps.map (·.name)).Nodup
  packages : ∀ p ∈ ps, PackageOK p
  dependencies : ∀ p ∈ ps, ∀ d ∈ p.dependencyNames, ∃ q ∈ ps, q.name = d

end Verif.Spec
