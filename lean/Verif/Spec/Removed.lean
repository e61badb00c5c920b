import Verif.Spec.Additions
import Verif.Spec.Described
import Verif.Spec.Says

/-! # Specification: what the sources declare outside of messages -/

namespace Verif.Spec

open Verif Str Proto Exec

/-- What is declared outside of messages. -/
inductive DeclKind where
  | message
  | enum
  | service

/-- The source declares a message, an enum or a service with the name, outside of messages. -/
def DeclaresTop (es : List Element) (n : Str) : DeclKind → Prop
  | .message => ∃ m sub, .message m sub ∈ es ∧ m.isExtend = false ∧ m.name = n
  | .enum => ∃ e sub, .enum e sub ∈ es ∧ e.name = n
  | .service => ∃ s sub, .service s sub ∈ es ∧ s.name = n

/-- One of the files declares it in the package. -/
def ProjectDeclares (h : Exec.Host) (files : List (Str × Str)) (disk : Disk) (package n : Str) (kind : DeclKind) : Prop :=
  ∃ x ∈ files, ∃ content es, disk x.2 = some content ∧ h.parse x.2 content = .ok es ∧ packageOf es = package ∧
    DeclaresTop es n kind

/-- Groups, maps and oneofs are in messages only. -/
def TopLevel (h : Exec.Host) (files : List (Str × Str)) (disk : Disk) : Prop :=
  ∀ x ∈ files, ∀ content es, disk x.2 = some content → h.parse x.2 content = .ok es → ∀ e ∈ es,
    (∀ g sub, e ≠ .group g sub) ∧ (∀ f, e ≠ .mapField f) ∧ ∀ o sub, e ≠ .oneof o sub

/-- The statement that there is such a declaration. -/
def DeclKind.fact (package n : Str) : DeclKind → Fact
  | .message => .message package [n]
  | .enum => .enum package [] n
  | .service => .service package n

end Verif.Spec
