import Verif.Spec.Removed

/-! # Specification: what the sources declare, at any depth -/

namespace Verif.Spec

open Verif Str Proto Exec

/-- The declaration is one of these, or in a oneof among them. -/
inductive Among : List Element → Element → Prop
  | here {es e} : e ∈ es → Among es e
  | oneof {es o os e} : .oneof o os ∈ es → Among os e → Among es e

/-- The name of the message that the declaration declares: groups declare messages, and so do maps. -/
def messageNamed (P : Protoc) : Element → Option Str
  | .message m _ => if m.isExtend then none else some m.name
  | .group g _ => some g.name
  | .mapField f => some (P.entryName f.field.name)
  | _ => none

/-- What is in the braces of a message or group. -/
def bodyOf : Element → List Element
  | .message _ es => es
  | .group _ es => es
  | _ => []

/-- The declaration declares the message with the path. -/
inductive MessageIn (P : Protoc) : List Element → List Str → Element → Prop
  | here {es e n} : Among es e → messageNamed P e = some n → MessageIn P es [n] e
  | inside {es e n path e'} : Among es e → messageNamed P e = some n → MessageIn P (bodyOf e) path e' →
      MessageIn P es (n :: path) e'

/-- The declaration, or one in it if it is a oneof, declares the field with the number and name. -/
def FieldIs (P : Protoc) (k : Int) (n : Str) : Element → Prop
  | .normalField f => f.field.sequence = k ∧ f.field.name = n
  | .mapField f => f.field.sequence = k ∧ f.field.name = n
  | .group g _ => g.sequence = k ∧ P.groupField g.name = n
  | .oneof _ os => (∃ f, .oneofField f ∈ os ∧ f.sequence = k ∧ f.name = n) ∨
      ∃ g sub, .group g sub ∈ os ∧ g.sequence = k ∧ P.groupField g.name = n
  | _ => False

/-- The message has the field. The entries of a map have a key and a value. -/
def HasField (P : Protoc) (e : Element) (k : Int) (n : Str) : Prop :=
  (∃ x ∈ bodyOf e, FieldIs P k n x) ∨ ∃ f, e = .mapField f ∧ (k = 1 ∧ n = s%"key" ∨ k = 2 ∧ n = s%"value")

/-- What is declared at some depth. -/
inductive Member where
  | message
  | field (number : Int)
  | oneof
  | enum
  | method

/-- The source declares this, with the name, in the message or the service with the path. -/
def DeclaresAt (P : Protoc) (es : List Element) (path : List Str) (n : Str) : Member → Prop
  | .message => ∃ e, MessageIn P es (path ++ [n]) e
  | .field k => ∃ e, MessageIn P es path e ∧ HasField P e k n
  | .oneof => ∃ e, MessageIn P es path e ∧ ∃ o os, .oneof o os ∈ bodyOf e ∧ o.name = n
  | .enum => (path = [] ∧ ∃ x vs, .enum x vs ∈ es ∧ x.name = n) ∨
      ∃ e, MessageIn P es path e ∧ ∃ x vs, .enum x vs ∈ bodyOf e ∧ x.name = n
  | .method => ∃ s sub, .service s sub ∈ es ∧ path = [s.name] ∧ ∃ r rs, .rpc r rs ∈ sub ∧ r.name = n

/-- One of the files declares it in the package. -/
def ProjectDeclaresAt (P : Protoc) (h : Exec.Host) (files : List (Str × Str)) (disk : Disk) (package : Str)
    (path : List Str) (n : Str) (member : Member) : Prop :=
  ∃ x ∈ files, ∃ content es, disk x.2 = some content ∧ h.parse x.2 content = .ok es ∧ packageOf es = package ∧
    DeclaresAt P es path n member

/-- The enum with this name among the declarations has a value with the number and name. -/
def HasValue (es : List Element) (inEnum : Str) (k : Int) (n : Str) : Prop :=
  ∃ x vs, .enum x vs ∈ es ∧ x.name = inEnum ∧ ∃ f sub, .enumField f sub ∈ vs ∧ f.integer = k ∧ f.name = n

/-- One of the files declares the value of the enum, which is in the message with the path, or outside of messages if the
path is empty. -/
def ProjectDeclaresValue (P : Protoc) (h : Exec.Host) (files : List (Str × Str)) (disk : Disk) (package : Str)
    (path : List Str) (inEnum : Str) (k : Int) (n : Str) : Prop :=
  ∃ x ∈ files, ∃ content es, disk x.2 = some content ∧ h.parse x.2 content = .ok es ∧ packageOf es = package ∧
    ((path = [] ∧ HasValue es inEnum k n) ∨ ∃ e, MessageIn P es path e ∧ HasValue (bodyOf e) inEnum k n)

end Verif.Spec
