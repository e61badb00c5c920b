import Verif.Spec.Breaking
import Verif.Go.Strconv

/-!
# What break check must report

One constructor for every documented kind of breaking change (docs/breaking.md):
the change, the identifier of the check and the text of the failure. `old` and
`new` are the packages that are checked.
-/

namespace Verif.Spec

open Verif Reflect

/-- The keyword of a label. -/
def labelKeyword (label : Int) : Str :=
  if label = 1 then s%"optional" else if label = 2 then s%"required" else s%"repeated"

/-- The keywords of the field types 1 to 18. -/
def typeKeywords : List Str :=
  [s%"double", s%"float", s%"int64", s%"uint64", s%"int32", s%"fixed64", s%"fixed32", s%"bool",
   s%"string", s%"group", s%"message", s%"bytes", s%"uint32", s%"enum", s%"sfixed32", s%"sfixed64",
   s%"sint32", s%"sint64"]

/-- The keyword of a field type. -/
def typeKeyword (type : Int) : Str := typeKeywords.getD (type.toNat - 1) []

/-- The quoted decimal notation of a number. -/
def quotedNumber (n : Int) : Str := s%"\"" ++ itoa n ++ s%"\""

/-- `q` is the new version of the package `p`. -/
def PackagePair (old new : PackageSet) (p q : Package) : Prop := p ∈ old ∧ q ∈ new ∧ q.name = p.name

/-- `m'` is the new version of the message `m`, whose full name is `name`. -/
def MessagePair (old new : PackageSet) (name : Str) (m m' : Message) : Prop :=
  ∃ p q path, PackagePair old new p q ∧ MessageAt p.messages path m ∧ MessageAt q.messages path m' ∧
    name = fullName p.name path

/-- `e'` is the new version of the enum `e`, whose full name is `name`. -/
def EnumPair (old new : PackageSet) (name : Str) (e e' : Enum) : Prop :=
  ∃ p q scope, PackagePair old new p q ∧ EnumAt p scope e ∧ EnumAt q scope e' ∧ e'.name = e.name ∧
    name = fullName p.name (scope ++ [e.name])

/-- `s'` is the new version of the service `s`, whose full name is `name`. -/
def ServicePair (old new : PackageSet) (name : Str) (s s' : Service) : Prop :=
  ∃ p q, PackagePair old new p q ∧ s ∈ p.services ∧ s' ∈ q.services ∧ s'.name = s.name ∧
    name = fullName p.name [s.name]

/-- `f'` is the new version of the field `f` of the message with the given name. -/
def FieldPair (old new : PackageSet) (name : Str) (f f' : Field) : Prop :=
  ∃ m m', MessagePair old new name m m' ∧ f ∈ m.fields ∧ f' ∈ m'.fields ∧ f'.number = f.number

/-- `m'` is the new version of the method `m` of the service with the given name. -/
def MethodPair (old new : PackageSet) (name : Str) (m m' : Method) : Prop :=
  ∃ s s', ServicePair old new name s s' ∧ m ∈ s.methods ∧ m' ∈ s'.methods ∧ m'.name = m.name

/-- `Reported old new id text`: the check `id` reports `text`. -/
inductive Reported (old new : PackageSet) : Str → Str → Prop
  | packageDeleted {p} : p ∈ old → (∀ q ∈ new, q.name ≠ p.name) →
      Reported old new (s%"PACKAGES_NOT_DELETED")
        (s%"Package " ++ quote p.name ++ s%" was deleted.")
  | messageDeleted {p q scope m} : PackagePair old new p q → MessageAt p.messages (scope ++ [m.name]) m →
      ScopeAt q scope → (∀ m', ¬ MessageAt q.messages (scope ++ [m.name]) m') →
      Reported old new (s%"MESSAGES_NOT_DELETED")
        (s%"Message " ++ quote (fullName p.name (scope ++ [m.name])) ++ s%" was deleted.")
  | fieldDeleted {name m m' f} : MessagePair old new name m m' → f ∈ m.fields →
      (∀ f' ∈ m'.fields, f'.number ≠ f.number) →
      Reported old new (s%"MESSAGE_FIELDS_NOT_DELETED")
        (s%"Message field " ++ quotedNumber f.number ++ s%" on message " ++ quote name ++
          s%" was deleted.")
  | fieldRenamed {name f f'} : FieldPair old new name f f' → f.name ≠ f'.name →
      Reported old new (s%"MESSAGE_FIELDS_SAME_NAME")
        (s%"Message field " ++ quotedNumber f.number ++ s%" on message " ++ quote name ++
          s%" changed from " ++ quote f.name ++ s%" to " ++ quote f'.name ++ s%".")
  | fieldLabelChanged {name f f'} : FieldPair old new name f f' → f.label ≠ f'.label →
      Reported old new (s%"MESSAGE_FIELDS_SAME_LABEL")
        (s%"Message field " ++ quotedNumber f.number ++ s%" on message " ++ quote name ++
          s%" changed from " ++ quote (labelKeyword f.label) ++ s%" to " ++
          quote (labelKeyword f'.label) ++ s%".")
  | fieldTypeChanged {name f f'} : FieldPair old new name f f' → f.type ≠ f'.type →
      Reported old new (s%"MESSAGE_FIELDS_SAME_TYPE")
        (s%"Message field " ++ quotedNumber f.number ++ s%" on message " ++ quote name ++
          s%" changed type from " ++ quote (typeKeyword f.type) ++ s%" to " ++
          quote (typeKeyword f'.type) ++ s%".")
  | fieldTypeNameChanged {name f f'} : FieldPair old new name f f' → f.type = f'.type →
      NamesType f.type → f.typeName ≠ f'.typeName →
      Reported old new (s%"MESSAGE_FIELDS_SAME_TYPE")
        (s%"Message field " ++ quotedNumber f.number ++ s%" on message " ++ quote name ++
          s%" changed type from " ++ quote f.typeName ++ s%" to " ++ quote f'.typeName ++ s%".")
  | fieldMovedIntoOneof {name m m' f f' oneof} : MessagePair old new name m m' → f ∈ m.fields →
      f' ∈ m'.fields → f'.number = f.number → oneofOf m f.number = none →
      oneofOf m' f.number = some oneof →
      Reported old new (s%"MESSAGE_FIELDS_SAME_ONEOF")
        (s%"Message field " ++ quotedNumber f.number ++ s%" on message " ++ quote name ++
          s%" moved from outside any oneof to inside the oneof " ++ quote oneof ++ s%".")
  | oneofDeleted {name m m' w} : MessagePair old new name m m' → w ∈ m.oneofs →
      (∀ w' ∈ m'.oneofs, w'.name ≠ w.name) →
      Reported old new (s%"MESSAGE_ONEOFS_NOT_DELETED")
        (s%"Message oneof " ++ quote w.name ++ s%" on message " ++ quote name ++ s%" was deleted.")
  | fieldRemovedFromOneof {name m m' w w' n} : MessagePair old new name m m' → w ∈ m.oneofs →
      w' ∈ m'.oneofs → w'.name = w.name → n ∈ w.fieldNumbers → n ∉ w'.fieldNumbers →
      Reported old new (s%"MESSAGE_ONEOFS_FIELDS_NOT_REMOVED")
        (s%"Message oneof " ++ quote w.name ++ s%" on message " ++ quote name ++
          s%" had field " ++ quotedNumber n ++ s%" removed.")
  | enumDeleted {p q scope e} : PackagePair old new p q → EnumAt p scope e → ScopeAt q scope →
      (∀ e', EnumAt q scope e' → e'.name ≠ e.name) →
      Reported old new (s%"ENUMS_NOT_DELETED")
        (s%"Enum " ++ quote (fullName p.name (scope ++ [e.name])) ++ s%" was deleted.")
  | enumValueDeleted {name e e' n a} : EnumPair old new name e e' → knownAs e n = some a →
      knownAs e' n = none →
      Reported old new (s%"ENUM_VALUES_NOT_DELETED")
        (s%"Enum value " ++ quotedNumber n ++ s%" on enum " ++ quote name ++ s%" was deleted.")
  | enumValueRenamed {name e e' n a b} : EnumPair old new name e e' → knownAs e n = some a →
      knownAs e' n = some b → a ≠ b →
      Reported old new (s%"ENUM_VALUES_SAME_NAME")
        (s%"Enum value " ++ quotedNumber n ++ s%" on enum " ++ quote name ++ s%" changed from " ++
          quote a ++ s%" to " ++ quote b ++ s%".")
  | serviceDeleted {p q s} : PackagePair old new p q → s ∈ p.services →
      (∀ s' ∈ q.services, s'.name ≠ s.name) →
      Reported old new (s%"SERVICES_NOT_DELETED")
        (s%"Service " ++ quote (fullName p.name [s.name]) ++ s%" was deleted.")
  | methodDeleted {name s s' m} : ServicePair old new name s s' → m ∈ s.methods →
      (∀ m' ∈ s'.methods, m'.name ≠ m.name) →
      Reported old new (s%"SERVICE_METHODS_NOT_DELETED")
        (s%"Service method " ++ quote m.name ++ s%" on service " ++ quote name ++ s%" was deleted.")
  | requestChanged {name m m'} : MethodPair old new name m m' →
      m.requestTypeName ≠ m'.requestTypeName →
      Reported old new (s%"SERVICE_METHODS_SAME_REQUEST_TYPE")
        (s%"Service method " ++ quote m.name ++ s%" on service " ++ quote name ++
          s%" changed request type from " ++ quote m.requestTypeName ++ s%" to " ++
          quote m'.requestTypeName ++ s%".")
  | responseChanged {name m m'} : MethodPair old new name m m' →
      m.responseTypeName ≠ m'.responseTypeName →
      Reported old new (s%"SERVICE_METHODS_SAME_RESPONSE_TYPE")
        (s%"Service method " ++ quote m.name ++ s%" on service " ++ quote name ++
          s%" changed response type from " ++ quote m.responseTypeName ++ s%" to " ++
          quote m'.responseTypeName ++ s%".")
  | clientStreamingStarted {name m m'} : MethodPair old new name m m' →
      m.clientStreaming = false → m'.clientStreaming = true →
      Reported old new (s%"SERVICE_METHODS_SAME_CLIENT_STREAMING")
        (s%"Service method " ++ quote m.name ++ s%" on service " ++ quote name ++
          s%" changed from not client streaming to client streaming.")
  | clientStreamingStopped {name m m'} : MethodPair old new name m m' →
      m.clientStreaming = true → m'.clientStreaming = false →
      Reported old new (s%"SERVICE_METHODS_SAME_CLIENT_STREAMING")
        (s%"Service method " ++ quote m.name ++ s%" on service " ++ quote name ++
          s%" changed from client streaming to not client streaming.")
  | serverStreamingStarted {name m m'} : MethodPair old new name m m' →
      m.serverStreaming = false → m'.serverStreaming = true →
      Reported old new (s%"SERVICE_METHODS_SAME_SERVER_STREAMING")
        (s%"Service method " ++ quote m.name ++ s%" on service " ++ quote name ++
          s%" changed from not server streaming to server streaming.")
  | serverStreamingStopped {name m m'} : MethodPair old new name m m' →
      m.serverStreaming = true → m'.serverStreaming = false →
      Reported old new (s%"SERVICE_METHODS_SAME_SERVER_STREAMING")
        (s%"Service method " ++ quote m.name ++ s%" on service " ++ quote name ++
          s%" changed from server streaming to not server streaming.")

/-- The additional check of the default beta mode: a stable package of the new schema
must not depend on a beta package. -/
inductive BetaDependencyReported (new : PackageSet) : Str → Str → Prop
  | mk {q d} : q ∈ new → d ∈ q.dependencyNames → IsBetaPackage d →
      BetaDependencyReported new (s%"PACKAGES_NO_BETA_DEPS")
        (s%"Package " ++ quote q.name ++ s%" depends on beta package " ++ quote d ++
          s%" which is not allowed.")

open Classical in
/-- The packages of a schema that are checked. -/
noncomputable def checkedPackages (includeBeta : Bool) (ps : PackageSet) : PackageSet :=
  ps.filter fun p => decide (Checked includeBeta p.name)

/-- What break check must report for the given settings (`include_beta`,
`allow_beta_deps`). -/
def MustReport (includeBeta allowBetaDeps : Bool) (old new : PackageSet) (id text : Str) : Prop :=
  Reported (checkedPackages includeBeta old) (checkedPackages includeBeta new) id text ∨
  (includeBeta = false ∧ allowBetaDeps = false ∧
    BetaDependencyReported (checkedPackages includeBeta new) id text)

end Verif.Spec
