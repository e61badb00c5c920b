import Verif.Spec.Members

/-! # Specification: builtin types of fields, read off the sources -/

namespace Verif.Spec

open Verif Str Proto Exec

/-- The builtin types, with the numbers they have in descriptors. -/
def builtinTypes : List (Str × Int) :=
  [(s%"double", 1), (s%"float", 2), (s%"int64", 3), (s%"uint64", 4), (s%"int32", 5), (s%"fixed64", 6), (s%"fixed32", 7),
   (s%"bool", 8), (s%"string", 9), (s%"bytes", 12), (s%"uint32", 13), (s%"sfixed32", 15), (s%"sfixed64", 16),
   (s%"sint32", 17), (s%"sint64", 18)]

/-- A field gets the number of a builtin type exactly if that type is written. -/
def KnowsBuiltins (P : Protoc) : Prop :=
  ∀ x ∈ builtinTypes, ∀ names scope written, (P.resolve names scope written).1 = x.2 ↔ written = x.1

/-- The declaration, or one in it if it is a oneof, declares the field with the number, name and written type. -/
def FieldTyped (k : Int) (n type : Str) : Element → Prop
  | .normalField f => f.field.sequence = k ∧ f.field.name = n ∧ f.field.type = type
  | .oneof _ os => ∃ f, .oneofField f ∈ os ∧ f.sequence = k ∧ f.name = n ∧ f.type = type
  | _ => False

/-- The message has the field, with this written type. The entries of a map have a key and a value. -/
def HasTyped (e : Element) (k : Int) (n type : Str) : Prop :=
  (∃ x ∈ bodyOf e, FieldTyped k n type x) ∨
    ∃ f, e = .mapField f ∧ (k = 1 ∧ n = s%"key" ∧ f.keyType = type ∨ k = 2 ∧ n = s%"value" ∧ f.field.type = type)

/-- One of the files declares the field with this type, in the message with the path. -/
def ProjectDeclaresTyped (P : Protoc) (h : Exec.Host) (files : List (Str × Str)) (disk : Disk) (package : Str)
    (path : List Str) (k : Int) (n type : Str) : Prop :=
  ∃ x ∈ files, ∃ content es, disk x.2 = some content ∧ h.parse x.2 content = .ok es ∧ packageOf es = package ∧
    ∃ e, MessageIn P es path e ∧ HasTyped e k n type

end Verif.Spec
