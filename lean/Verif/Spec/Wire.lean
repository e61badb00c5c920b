import Verif.Spec.Schema

/-!
# Data written under a schema

How an encoded message is read with the help of a schema. Nothing here refers to the
code of prototool: this is what a Protobuf library does with the messages, fields and
enums of a schema.
-/

namespace Verif.Spec.Encoded

open Verif Reflect Spec

/-- The schema declares the message `m` under the full name, in the package. -/
def DeclaresMessage (ps : PackageSet) (package name : Str) (m : Message) : Prop :=
  ∃ p ∈ ps, p.name = package ∧ ∃ path, MessageAt p.messages path m ∧ fullName p.name path = name

/-- The schema declares the enum `e` under the full name, in the package. -/
def DeclaresEnum (ps : PackageSet) (package name : Str) (e : Enum) : Prop :=
  ∃ p ∈ ps, p.name = package ∧ ∃ path, EnumAt p path e ∧ fullName p.name (path ++ [e.name]) = name

/-- What protoc ensures of full names: they identify a message or an enum, and fields
refer to declared ones. -/
structure Linked (ps : PackageSet) : Prop where
  message_unique : ∀ {package package' name m m'}, DeclaresMessage ps package name m →
    DeclaresMessage ps package' name m' → m = m'
  enum_unique : ∀ {package package' name e e'}, DeclaresEnum ps package name e →
    DeclaresEnum ps package' name e' → e = e'
  message_declared : ∀ {package name m}, DeclaresMessage ps package name m →
    ∀ f ∈ m.fields, f.type = 10 ∨ f.type = 11 → ∃ package' m', DeclaresMessage ps package' f.typeName m'
  enum_declared : ∀ {package name m}, DeclaresMessage ps package name m →
    ∀ f ∈ m.fields, f.type = 14 → ∃ package' e, DeclaresEnum ps package' f.typeName e

/-- The messages of the selected packages refer only to messages and enums of selected
packages. -/
structure Closed (scope : Str → Prop) (ps : PackageSet) : Prop where
  messages : ∀ {package name m}, DeclaresMessage ps package name m → scope package →
    ∀ f ∈ m.fields, NamesType f.type → ∀ {package' m'}, DeclaresMessage ps package' f.typeName m' →
      scope package'
  enums : ∀ {package name m}, DeclaresMessage ps package name m → scope package →
    ∀ f ∈ m.fields, NamesType f.type → ∀ {package' e}, DeclaresEnum ps package' f.typeName e →
      scope package'

/-- A way to encode messages: `Key` tells the fields of a message apart (numbers in the
binary encoding, names in JSON and in the text format), `Payload` is what is written
for one field, and `Data` are the scalar values. -/
structure Format (Key Payload Data : Type) where
  /-- The key of the field with the name and the number. -/
  key : Str → Int → Key
  /-- The fields of a message that is itself written in a field of the given type. -/
  fields : Int → Payload → Option (List (Key × Payload))
  /-- The scalar written for a field with the given label and type. -/
  scalar : Int → Int → Payload → Option Data
  /-- The numbers written for a field with the given label and enum. -/
  numbers : Int → Enum → Payload → Option (List Int)

/-- What a reader knows of the field that a value was written for. -/
structure Slot where
  name : Str
  number : Int
  label : Int
  type : Int
  typeName : Str
  oneof : Option Str
deriving DecidableEq

/-- One field of a message as it was read. -/
inductive Entry (Key Payload Data : Type) where
  | scalar (slot : Slot) (data : Data)
  /-- The numbers, each with the name of the enum value if it has one. -/
  | enum (slot : Slot) (numbers : List (Int × Option Str))
  | message (slot : Slot) (entries : List (Entry Key Payload Data))
  /-- A field that the schema does not have. -/
  | unknown (key : Key) (payload : Payload)

/-- What a reader knows of the field of the message. The type name counts only if the
type refers to a definition. -/
def slotOf (m : Message) (f : Field) : Slot :=
  ⟨f.name, f.number, f.label, f.type,
    if f.type = 10 ∨ f.type = 11 ∨ f.type = 14 then f.typeName else [], oneofOf m f.number⟩

variable {Key Payload Data : Type}

/-- With the schema, the fields written for a message of the type `m` are read as the
entries. -/
inductive Reads (F : Format Key Payload Data) (ps : PackageSet) :
    Message → List (Key × Payload) → List (Entry Key Payload Data) → Prop
  | done {m} : Reads F ps m [] []
  | scalar {m f k p d rs es} : f ∈ m.fields → F.key f.name f.number = k → ¬ NamesType f.type →
      F.scalar f.label f.type p = some d → Reads F ps m rs es →
      Reads F ps m ((k, p) :: rs) (.scalar (slotOf m f) d :: es)
  | enum {m f k p package e ns rs es} : f ∈ m.fields → F.key f.name f.number = k → f.type = 14 →
      DeclaresEnum ps package f.typeName e → F.numbers f.label e p = some ns → Reads F ps m rs es →
      Reads F ps m ((k, p) :: rs) (.enum (slotOf m f) (ns.map fun n => (n, knownAs e n)) :: es)
  | message {m f k p package t rs' es' rs es} : f ∈ m.fields → F.key f.name f.number = k →
      f.type = 10 ∨ f.type = 11 → DeclaresMessage ps package f.typeName t →
      F.fields f.type p = some rs' → Reads F ps t rs' es' → Reads F ps m rs es →
      Reads F ps m ((k, p) :: rs) (.message (slotOf m f) es' :: es)
  | unknown {m k p rs es} : (∀ f ∈ m.fields, F.key f.name f.number ≠ k) → Reads F ps m rs es →
      Reads F ps m ((k, p) :: rs) (.unknown k p :: es)

/-- All fields and all enum numbers are known, also in the messages inside. This is so
for data written under the schema it is read with. -/
inductive Known : List (Entry Key Payload Data) → Prop
  | done : Known []
  | scalar {slot d es} : Known es → Known (.scalar slot d :: es)
  | enum {slot ns es} : (∀ n ∈ ns, n.2 ≠ none) → Known es → Known (.enum slot ns :: es)
  | message {slot es' es} : Known es' → Known es → Known (.message slot es' :: es)

/-- The number of the field that the entry was written for. -/
def Entry.number : Entry Key Payload Data → Option Int
  | .scalar slot _ => some slot.number
  | .enum slot _ => some slot.number
  | .message slot _ => some slot.number
  | .unknown _ _ => none

/-- The required fields of the message are there, also in the messages inside. Readers
reject a message that lacks one. -/
inductive Complete (ps : PackageSet) : Message → List (Entry Key Payload Data) → Prop
  | mk {m es} : (∀ f ∈ m.fields, f.label = 2 → ∃ e ∈ es, e.number = some f.number) →
      (∀ slot es', .message slot es' ∈ es → ∀ package t, DeclaresMessage ps package slot.typeName t →
        Complete ps t es') → Complete ps m es

/-- What a reader with less knowledge sees: some fields are unknown to it, some enum
numbers have no name, and all the rest is the same. -/
inductive Sees : List (Entry Key Payload Data) → List (Entry Key Payload Data) → Prop
  | done : Sees [] []
  | scalar {slot d es es'} : Sees es es' → Sees (.scalar slot d :: es) (.scalar slot d :: es')
  | enum {slot ns ns' es es'} : ns.map Prod.fst = ns'.map Prod.fst →
      (∀ n name, (n, some name) ∈ ns → (n, some name) ∈ ns') → Sees es es' →
      Sees (.enum slot ns :: es) (.enum slot ns' :: es')
  | message {slot i i' es es'} : Sees i i' → Sees es es' →
      Sees (.message slot i :: es) (.message slot i' :: es')
  | unknown {k p e es es'} : Sees es es' → Sees (.unknown k p :: es) (e :: es')

/-- The keys tell the fields of every message apart. -/
def Keyed (F : Format Key Payload Data) (ps : PackageSet) : Prop :=
  ∀ {package name m}, DeclaresMessage ps package name m → ∀ f ∈ m.fields, ∀ f' ∈ m.fields,
    F.key f.name f.number = F.key f'.name f'.number → f = f'

/-- Messages that are in both schemas have no new required fields. -/
def NoRequiredAdded (old new : PackageSet) : Prop :=
  ∀ {package name m m'}, DeclaresMessage old package name m → DeclaresMessage new package name m' →
    ∀ f' ∈ m'.fields, f'.label = 2 → ∃ f ∈ m.fields, f.number = f'.number

/-- Enum numbers are read the same with an enum of `old` and with one of `new` that
keeps it. -/
def SameNumbers (F : Format Key Payload Data) (old new : PackageSet) : Prop :=
  ∀ {package package' name e e'}, DeclaresEnum old package name e → DeclaresEnum new package' name e' →
    (∀ number name, knownAs e number = some name → knownAs e' number = some name) →
    ∀ label p ns, F.numbers label e p = some ns → F.numbers label e' p = some ns

/-- The number of the enum value with the name. -/
def numberNamed (e : Enum) (name : Str) : Option Int :=
  (e.values.find? fun v => v.name = name).map (·.number)

/-- Enum values may be given by name: the numbers that are read depend on the enum only
by the numbers of its names. -/
def ByName (F : Format Key Payload Data) : Prop :=
  ∀ label e e' p, (∀ name number, numberNamed e name = some number → numberNamed e' name = some number) →
    ∀ ns, F.numbers label e p = some ns → F.numbers label e' p = some ns

/-- No two values of an enum have the same number. -/
def NoAliases (ps : PackageSet) : Prop :=
  ∀ {package name e}, DeclaresEnum ps package name e → (e.values.map (·.number)).Nodup

/-- What protoc ensures: no two values of an enum have the same name. -/
def ValueNames (ps : PackageSet) : Prop :=
  ∀ {package name e}, DeclaresEnum ps package name e → (e.values.map (·.name)).Nodup

end Verif.Spec.Encoded
