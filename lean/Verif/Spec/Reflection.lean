import Verif.Spec.Descriptors
import Verif.Spec.Schema

/-!
# What a set of file descriptors describes

The packages, messages, enums and services that a list of files declares, stated
without reference to the code.
-/

namespace Verif.Spec

open Verif Descriptor Reflect

/-- A fully qualified name, as protoc writes it: it starts with a dot. -/
def Qualified (name : Str) : Prop := ∃ rest, name = '.' :: rest

/-- The type name of a field is absent or qualified, and its oneof is declared. -/
def FieldQualified (oneofs : List Str) (f : FieldDesc) : Prop :=
  (f.typeName = [] ∨ Qualified f.typeName) ∧ ∀ i, f.oneofIndex = some i → i < oneofs.length

mutual
/-- All fields at any depth are well formed. -/
def MessageQualified : MessageDesc → Prop
  | .mk _ nested _ fields oneofs =>
    MessagesQualified nested ∧ ∀ f ∈ fields, FieldQualified oneofs f
/-- `MessageQualified` for all messages. -/
def MessagesQualified : List MessageDesc → Prop
  | [] => True
  | d :: ds => MessageQualified d ∧ MessagesQualified ds
end

/-- The files form a closed and consistent schema: every file has a proper package, a
file name stands for one file, imports are present, and references are
qualified. -/
structure Reflectable (files : List FileDesc) : Prop where
  packages : ∀ f ∈ files, f.package ≠ [] ∧ ¬ Qualified f.package
  one_copy : ∀ f ∈ files, ∀ g ∈ files, f.name = g.name → f = g
  imports : ∀ f ∈ files, ∀ d ∈ f.dependency, ∃ g ∈ files, g.name = d
  messages : ∀ f ∈ files, MessagesQualified f.messages
  methods : ∀ f ∈ files, ∀ s ∈ f.services, ∀ m ∈ s.methods, Qualified m.inputType ∧ Qualified m.outputType

/-- In order of names. -/
def ByName {α : Type} (name : α → Str) (l : List α) : Prop :=
  l.Pairwise fun a b => Str.lt (name b) (name a) = false

/-- In order of numbers. -/
def ByNumber {α : Type} (number : α → Int) (l : List α) : Prop :=
  l.Pairwise fun a b => number a ≤ number b

/-- The reflected field: as declared, the type name without the leading dot. -/
def fieldOf (f : FieldDesc) : Field := ⟨f.name, f.number, f.label, f.type, f.typeName.drop 1⟩

/-- The name of the oneof a field is declared in. -/
def oneofName (oneofs : List Str) (f : FieldDesc) : Option Str :=
  f.oneofIndex.bind fun i => oneofs[i]?

/-- The enum has the declared values, in order of numbers. -/
structure DescribesEnum (d e : Enum) : Prop where
  name : e.name = d.name
  values : e.values.Perm d.values
  sorted : ByNumber (·.number) e.values

/-- The lists correspond element by element, in some order. -/
inductive Matches {α β : Type} (R : α → β → Prop) : List α → List β → Prop
  | nil : Matches R [] []
  | cons {a b as bs} : R a b → Matches R as bs → Matches R (a :: as) (b :: bs)
  | perm {as bs bs'} : Matches R as bs → bs.Perm bs' → Matches R as bs'

/-- The oneofs are the declared ones with the numbers of their fields. -/
structure DescribesOneofs (oneofs : List Str) (fields : List FieldDesc) (ws : List Oneof) : Prop where
  nodup : (ws.map (·.name)).Nodup
  names : ∀ n, n ∈ ws.map (·.name) ↔ n ∈ oneofs
  numbers : ∀ w ∈ ws, w.fieldNumbers.Perm
    ((fields.filter fun f => decide (oneofName oneofs f = some w.name)).map (·.number))
  sorted : ByName (·.name) ws
  numbers_sorted : ∀ w ∈ ws, ByNumber id w.fieldNumbers

/-- The message is the declared one, all listings sorted. -/
inductive Describes : MessageDesc → Message → Prop
  | mk {name nested enums fields oneofs nestedMessages nestedEnums fs ws} :
      Matches Describes nested nestedMessages → ByName Message.name nestedMessages →
      Matches DescribesEnum enums nestedEnums → ByName (·.name) nestedEnums →
      fs.Perm (fields.map fieldOf) → ByNumber (·.number) fs →
      DescribesOneofs oneofs fields ws →
      Describes (.mk name nested enums fields oneofs) (.mk name nestedMessages nestedEnums fs ws)

/-- The method is the declared one, the type names without the leading dot. -/
def methodOf (m : MethodDesc) : Method :=
  ⟨m.name, m.inputType.drop 1, m.outputType.drop 1, m.clientStreaming, m.serverStreaming⟩

/-- The service is the declared one, methods in order of names. -/
structure DescribesService (d : ServiceDesc) (s : Service) : Prop where
  name : s.name = d.name
  methods : s.methods.Perm (d.methods.map methodOf)
  sorted : ByName (·.name) s.methods

/-- The package holds what its files declare: `files` lists the files of the package,
each once. -/
structure DescribesPackage (all files : List FileDesc) (p : Package) : Prop where
  enums : Matches DescribesEnum (files.flatMap (·.enums)) p.enums
  enums_sorted : ByName (·.name) p.enums
  messages : Matches Describes (files.flatMap (·.messages)) p.messages
  messages_sorted : ByName Message.name p.messages
  services : Matches DescribesService (files.flatMap (·.services)) p.services
  services_sorted : ByName (·.name) p.services
  /-- dependencies are the other packages of the imported files -/
  dependencies : ∀ q, q ∈ p.dependencyNames ↔
    q ≠ p.name ∧ ∃ f ∈ files, ∃ d ∈ f.dependency, ∃ g ∈ all, g.name = d ∧ g.package = q
  dependencies_sorted : p.dependencyNames.Pairwise fun a b => Str.lt a b = true

/-- The listing contains the files of the package, each once. -/
def FilesOf (all : List FileDesc) (package : Str) (files : List FileDesc) : Prop :=
  files.Nodup ∧ ∀ f, f ∈ files ↔ f ∈ all ∧ f.package = package

/-- The package set has one package for each package named by a file, in order of
names. -/
structure DescribesSet (all : List FileDesc) (ps : PackageSet) : Prop where
  sorted : ps.Pairwise fun a b => Str.lt a.name b.name = true
  names : ∀ n, (∃ p ∈ ps, p.name = n) ↔ ∃ f ∈ all, f.package = n
  packages : ∀ p ∈ ps, ∀ files, FilesOf all p.name files → DescribesPackage all files p

/-- Within a package names identify enums, messages and services. -/
structure DistinctNames (all : List FileDesc) : Prop where
  enums : ∀ f ∈ all, (f.enums.map (·.name)).Nodup
  messages : ∀ f ∈ all, (f.messages.map MessageDesc.name).Nodup
  services : ∀ f ∈ all, (f.services.map (·.name)).Nodup
  across_enums : ∀ f ∈ all, ∀ g ∈ all, f.package = g.package →
    ∀ a ∈ f.enums, ∀ b ∈ g.enums, a.name = b.name → f = g
  across_messages : ∀ f ∈ all, ∀ g ∈ all, f.package = g.package →
    ∀ a ∈ f.messages, ∀ b ∈ g.messages, a.name = b.name → f = g
  across_services : ∀ f ∈ all, ∀ g ∈ all, f.package = g.package →
    ∀ a ∈ f.services, ∀ b ∈ g.services, a.name = b.name → f = g

end Verif.Spec
