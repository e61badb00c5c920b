import Verif.Spec.BreakingReports
import Verif.Spec.List
import Verif.Model.Text

/-!
# The element a failure of break check is about
-/

namespace Verif.Spec

open Verif Reflect

/-- The kind of an element, and its name or number within its scope. -/
inductive AffectedItem where
  | package
  | dependency (name : Str)
  | message (name : Str)
  | field (number : Int)
  | oneof (name : Str)
  | oneofField (oneof : Str) (number : Int)
  | enum (name : Str)
  | enumValue (enum : Str) (number : Int)
  | service (name : Str)
  | method (service name : Str)

/-- An element of a schema: its package, the messages around it, and what it is. -/
structure Affected where
  package : Str
  scope : List Str
  item : AffectedItem

/-- How failures name an element: the text of a failure begins like this. -/
def Affected.named (e : Affected) : Str :=
  match e.item with
  | .package => s%"Package " ++ quote e.package ++ s%" was deleted."
  | .dependency d => s%"Package " ++ quote e.package ++ s%" depends on beta package " ++ quote d
  | .message n => s%"Message " ++ quote (fullName e.package (e.scope ++ [n]))
  | .field n => s%"Message field " ++ quotedNumber n ++ s%" on message " ++
      quote (fullName e.package e.scope)
  | .oneof w => s%"Message oneof " ++ quote w ++ s%" on message " ++
      quote (fullName e.package e.scope) ++ s%" was deleted."
  | .oneofField w n => s%"Message oneof " ++ quote w ++ s%" on message " ++
      quote (fullName e.package e.scope) ++ s%" had field " ++ quotedNumber n
  | .enum n => s%"Enum " ++ quote (fullName e.package (e.scope ++ [n]))
  | .enumValue n k => s%"Enum value " ++ quotedNumber k ++ s%" on enum " ++
      quote (fullName e.package (e.scope ++ [n]))
  | .service s => s%"Service " ++ quote (fullName e.package [s])
  | .method s m => s%"Service method " ++ quote m ++ s%" on service " ++
      quote (fullName e.package [s])

/-- The element is there: in the old schema, or, for a dependency, in the new one. -/
def Affected.Exists (old new : PackageSet) (e : Affected) : Prop :=
  match e.item with
  | .package => e.scope = [] ∧ ∃ p ∈ old, p.name = e.package
  | .dependency d => e.scope = [] ∧ ∃ q ∈ new, q.name = e.package ∧ d ∈ q.dependencyNames
  | .message n => ∃ p ∈ old, p.name = e.package ∧ ∃ m, MessageAt p.messages (e.scope ++ [n]) m
  | .field n => ∃ p ∈ old, p.name = e.package ∧ ∃ m, MessageAt p.messages e.scope m ∧
      ∃ f ∈ m.fields, f.number = n
  | .oneof w => ∃ p ∈ old, p.name = e.package ∧ ∃ m, MessageAt p.messages e.scope m ∧
      ∃ x ∈ m.oneofs, x.name = w
  | .oneofField w n => ∃ p ∈ old, p.name = e.package ∧ ∃ m, MessageAt p.messages e.scope m ∧
      ∃ x ∈ m.oneofs, x.name = w ∧ n ∈ x.fieldNumbers
  | .enum n => ∃ p ∈ old, p.name = e.package ∧ ∃ x, EnumAt p e.scope x ∧ x.name = n
  | .enumValue n k => ∃ p ∈ old, p.name = e.package ∧ ∃ x, EnumAt p e.scope x ∧ x.name = n ∧
      ∃ v ∈ x.values, v.number = k
  | .service s => e.scope = [] ∧ ∃ p ∈ old, p.name = e.package ∧ ∃ x ∈ p.services, x.name = s
  | .method s m => e.scope = [] ∧ ∃ p ∈ old, p.name = e.package ∧ ∃ x ∈ p.services, x.name = s ∧
      ∃ y ∈ x.methods, y.name = m

/-- The failures are about different elements or of different checks: there is a list,
without repetitions, of the check and the element for each of them. -/
def EachOnce (old new : PackageSet) (fs : List Text.Failure) : Prop :=
  ∃ es : List (Str × Affected), es.Nodup ∧ (∀ e ∈ es, e.2.Exists old new) ∧
    Pointwise (fun e f => f.lintID = e.1 ∧ e.2.named <+: f.message) es fs

/-- Full names identify the messages, the enums and the services of the schema. -/
structure UniqueNames (ps : PackageSet) : Prop where
  messages : ∀ p ∈ ps, ∀ q ∈ ps, ∀ path m path' m', MessageAt p.messages path m →
    MessageAt q.messages path' m' → fullName p.name path = fullName q.name path' →
    p.name = q.name ∧ path = path'
  enums : ∀ p ∈ ps, ∀ q ∈ ps, ∀ scope e scope' e', EnumAt p scope e → EnumAt q scope' e' →
    fullName p.name (scope ++ [e.name]) = fullName q.name (scope' ++ [e'.name]) →
    p.name = q.name ∧ scope = scope' ∧ e.name = e'.name
  services : ∀ p ∈ ps, ∀ q ∈ ps, ∀ s ∈ p.services, ∀ s' ∈ q.services,
    fullName p.name [s.name] = fullName q.name [s'.name] → p.name = q.name ∧ s.name = s'.name

end Verif.Spec
