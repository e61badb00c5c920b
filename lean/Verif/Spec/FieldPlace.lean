import Verif.Spec.Members

/-! # Specification: labels and oneofs of fields, read off the sources -/

namespace Verif.Spec

open Verif Str Proto Exec

/-- The declaration, or one in it if it is a oneof, declares the field with the number and name, this label (1 optional,
2 required, 3 repeated) and in this oneof, or in none. -/
def FieldSays (P : Protoc) (k : Int) (n : Str) (label : Int) (inOneof : Option Str) : Element → Prop
  | .normalField f => f.field.sequence = k ∧ f.field.name = n ∧ labelNumber f = label ∧ inOneof = none
  | .mapField f => f.field.sequence = k ∧ f.field.name = n ∧ label = 3 ∧ inOneof = none
  | .group g _ => g.sequence = k ∧ P.groupField g.name = n ∧ label = 1 ∧ inOneof = none
  | .oneof o os => label = 1 ∧ inOneof = some o.name ∧ ((∃ f, .oneofField f ∈ os ∧ f.sequence = k ∧ f.name = n) ∨
      ∃ g sub, .group g sub ∈ os ∧ g.sequence = k ∧ P.groupField g.name = n)
  | _ => False

/-- One of the files declares the field so, in the message with the path. -/
def ProjectDeclaresField (P : Protoc) (h : Exec.Host) (files : List (Str × Str)) (disk : Disk) (package : Str)
    (path : List Str) (k : Int) (n : Str) (label : Int) (inOneof : Option Str) : Prop :=
  ∃ x ∈ files, ∃ content es, disk x.2 = some content ∧ h.parse x.2 content = .ok es ∧ packageOf es = package ∧
    ∃ e, MessageIn P es path e ∧ ((∃ y ∈ bodyOf e, FieldSays P k n label inOneof y) ∨
      ∃ f, e = .mapField f ∧ label = 1 ∧ inOneof = none ∧ (k = 1 ∧ n = s%"key" ∨ k = 2 ∧ n = s%"value"))

end Verif.Spec
