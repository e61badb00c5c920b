import Verif.Go.Keyed
import Verif.Model.Protostrs
import Verif.Model.ReflectTypes
import Verif.Go.Strconv

/-!
# Model of internal/extract/extract.go

The wrapper objects keep their parents by pointer in Go; only the parent's full
name is ever read through these pointers, so that is what the model keeps.
Package pointers in the dependency and importer maps are kept as names. Maps from
a name (number) to an object with that name (number) are lists with distinct keys.
-/

namespace Verif.Extract

open Verif Reflect

/-- `EnumValue`, internal/extract/extract.go:137-141. -/
structure XEnumValue where
  proto : EnumValue
  enumFqn : Str

/-- `Enum`, internal/extract/extract.go:108-114. -/
structure XEnum where
  proto : Enum
  fqn : Str
  valueNameToValue : List XEnumValue
  valueNumberToValue : List XEnumValue

/-- `MessageField`, internal/extract/extract.go:201-206. `oneof` is the message of
`messageOneof`, `none` for nil. -/
structure XField where
  proto : Field
  messageFqn : Str
  oneof : Option Oneof

/-- `MessageOneof`, internal/extract/extract.go:226-232. -/
structure XOneof where
  proto : Oneof
  messageFqn : Str

/-- `Message`, internal/extract/extract.go:154-163. -/
inductive XMessage where
  | mk (name : Str) (fqn : Str) (nestedEnums : List XEnum) (nestedMessages : List XMessage)
      (fieldNameToField : List XField) (fieldNumberToField : List XField) (oneofs : List XOneof)

namespace XMessage
def name : XMessage → Str | mk n _ _ _ _ _ _ => n
def fqn : XMessage → Str | mk _ f _ _ _ _ _ => f
def nestedEnums : XMessage → List XEnum | mk _ _ e _ _ _ _ => e
def nestedMessages : XMessage → List XMessage | mk _ _ _ m _ _ _ => m
def fieldNumberToField : XMessage → List XField | mk _ _ _ _ _ f _ => f
def oneofs : XMessage → List XOneof | mk _ _ _ _ _ _ o => o
end XMessage

/-- `ServiceMethod`, internal/extract/extract.go:278-282. -/
structure XMethod where
  proto : Method
  serviceFqn : Str

/-- `Service`, internal/extract/extract.go:255-260. -/
structure XService where
  proto : Service
  fqn : Str
  methods : List XMethod

/-- `Package`, internal/extract/extract.go:56-65. -/
structure XPackage where
  proto : Package
  dependencies : List Str
  importers : List Str
  enums : List XEnum
  messages : List XMessage
  services : List XService

/-- `PackageSet`, internal/extract/extract.go:32-36. -/
structure XPackageSet where
  proto : PackageSet
  packages : List XPackage

/-- `getFullyQualifiedName`, internal/extract/extract.go:456-461. -/
def getFullyQualifiedName (enclosing name : Str) : Str :=
  if enclosing = [] then name else enclosing ++ s%"." ++ name

/-- `ignorePackage`, internal/extract/extract.go:463-471. -/
def ignorePackage (withoutBeta : Bool) (packageName : Str) : Bool :=
  if !withoutBeta then false
  else
    match Protostrs.majorBetaVersion packageName with
    | none => false
    | some (_, betaVersion) => betaVersion > 0

/-- `newEnum` and `newEnumValue`, internal/extract/extract.go:348-368. -/
def newEnum (e : Enum) (enclosing : Str) : XEnum :=
  let fqn := getFullyQualifiedName enclosing e.name
  let values := e.values.map fun v => (⟨v, fqn⟩ : XEnumValue)
  { proto := e, fqn := fqn
    valueNameToValue := kmap (fun v => v.proto.name) values
    valueNumberToValue := kmap (fun v => v.proto.number) values }

/-- Sets the oneof of the field with the given number; `none` if there is none. -/
def setFieldOneof (fields : List XField) (number : Int) (oneof : Oneof) : Option (List XField) :=
  if (kget (fun f => f.proto.number) fields number).isSome then
    some (fields.map fun f => if f.proto.number = number then { f with oneof := some oneof } else f)
  else none

/-- The inner loop of `linkMessageFieldsOneofs`, internal/extract/extract.go:443-451. -/
def linkOneof (oneof : Oneof) : List Int → List XField → Except Err (List XField)
  | [], fields => .ok fields
  | n :: ns, fields =>
    match setFieldOneof fields n oneof with
    | none => .error (s%"oneof " ++ oneof.name ++ s%" has field number " ++ itoa n ++
        s%" which is not in the encapsulating message")
    | some fields => linkOneof oneof ns fields

/-- The outer loop of `linkMessageFieldsOneofs`, internal/extract/extract.go:441-454,
over the oneofs in the visited order. The maps from the oneof to its fields are
not modelled: nothing reads them. -/
def linkOneofs : List XOneof → List XField → Except Err (List XField)
  | [], fields => .ok fields
  | w :: ws, fields =>
    match linkOneof w.proto w.proto.fieldNumbers fields with
    | .error e => .error e
    | .ok fields => linkOneofs ws fields

/-- The part of `newMessage` after the nested messages are built,
internal/extract/extract.go:390-402. The map by field name shares the field objects
with the map by number; it is not read by anything, so links set later are not
repeated in it. -/
def finishMessage (o : Order) (m : Message) (fqn : Str) (nested : List XMessage) :
    Except Err XMessage :=
  let fields := m.fields.map fun f => (⟨f, fqn, none⟩ : XField)
  let oneofs := kmap (fun w => w.proto.name) (m.oneofs.map fun w => (⟨w, fqn⟩ : XOneof))
  match linkOneofs (o.ord [fqn] oneofs) (kmap (fun f => f.proto.number) fields) with
  | .error e => .error e
  | .ok byNumber =>
    .ok (.mk m.name fqn
      (kmap (fun e => e.proto.name) (m.nestedEnums.map fun e => newEnum e fqn))
      (kmap XMessage.name nested)
      (kmap (fun f => f.proto.name) fields) byNumber oneofs)

mutual
/-- `newMessage`, internal/extract/extract.go:370-403. -/
def newMessage (o : Order) : Message → Str → Except Err XMessage
  | .mk name nestedMessages nestedEnums fields oneofs, enclosing =>
    let fqn := getFullyQualifiedName enclosing name
    match newMessages o nestedMessages fqn with
    | .error e => .error e
    | .ok nested => finishMessage o (.mk name nestedMessages nestedEnums fields oneofs) fqn nested

/-- The loop over nested messages, internal/extract/extract.go:383-389, and over the
messages of a package, :334-340. The results are put into a map by the caller. -/
def newMessages (o : Order) : List Message → Str → Except Err (List XMessage)
  | [], _ => .ok []
  | m :: ms, enclosing =>
    match newMessage o m enclosing with
    | .error e => .error e
    | .ok x =>
      match newMessages o ms enclosing with
      | .error e => .error e
      | .ok xs => .ok (x :: xs)
end

/-- `newService` and `newServiceMethod`, internal/extract/extract.go:421-439. -/
def newService (s : Service) (enclosing : Str) : XService :=
  let fqn := getFullyQualifiedName enclosing s.name
  { proto := s, fqn := fqn
    methods := kmap (fun m => m.proto.name) (s.methods.map fun m => (⟨m, fqn⟩ : XMethod)) }

/-- The third loop of `newPackageSet` for one package, internal/extract/extract.go:331-343. -/
def fillPackage (o : Order) (p : XPackage) : Except Err XPackage :=
  match newMessages o p.proto.messages p.proto.name with
  | .error e => .error e
  | .ok messages =>
    .ok { p with
      enums := kmap (fun e => e.proto.name) (p.proto.enums.map fun e => newEnum e p.proto.name)
      messages := kmap XMessage.name messages
      services := kmap (fun s => s.proto.name)
        (p.proto.services.map fun s => newService s p.proto.name) }

/-- The body of the inner dependency loop, internal/extract/extract.go:319-327, for the
package named `packageName`. -/
def linkDependency (withoutBeta : Bool) (packageName : Str) (packages : List XPackage)
    (dependencyName : Str) : Except Err (List XPackage) :=
  match kget (fun p => p.proto.name) packages dependencyName with
  | none =>
    if ignorePackage withoutBeta dependencyName then .ok packages
    else .error (s%"no package for name " ++ dependencyName)
  | some _ =>
    let packages := packages.map fun p =>
      if p.proto.name = packageName then { p with dependencies := setInsert p.dependencies dependencyName } else p
    .ok (packages.map fun p =>
      if p.proto.name = dependencyName then { p with importers := setInsert p.importers packageName } else p)

/-- The inner dependency loop, internal/extract/extract.go:318-328. -/
def linkDependencies (withoutBeta : Bool) (packageName : Str) :
    List Str → List XPackage → Except Err (List XPackage)
  | [], packages => .ok packages
  | d :: ds, packages =>
    match linkDependency withoutBeta packageName packages d with
    | .error e => .error e
    | .ok packages => linkDependencies withoutBeta packageName ds packages

/-- The outer dependency loop, internal/extract/extract.go:317-329, over the packages
(name and dependency names) in the visited order. -/
def linkPackages (withoutBeta : Bool) : List XPackage → List XPackage → Except Err (List XPackage)
  | [], packages => .ok packages
  | p :: ps, packages =>
    match linkDependencies withoutBeta p.proto.name p.proto.dependencyNames packages with
    | .error e => .error e
    | .ok packages => linkPackages withoutBeta ps packages

/-- The packages before linking, internal/extract/extract.go:304-316. -/
def basePackages (withoutBeta : Bool) (protoMessage : PackageSet) : List XPackage :=
  kmap (fun p => p.proto.name)
    ((protoMessage.filter fun p => !ignorePackage withoutBeta p.name).map fun p =>
      (⟨p, [], [], [], [], []⟩ : XPackage))

/-- `newPackageSet`, internal/extract/extract.go:299-346. -/
def newPackageSet (o : Order) (protoMessage : PackageSet) (withoutBeta : Bool) :
    Except Err XPackageSet :=
  let base := basePackages withoutBeta protoMessage
  match linkPackages withoutBeta (o.ord [s%"link"] base) base with
  | .error e => .error e
  | .ok linked =>
    match mapLoop o [s%"fill"] (linked.map (fillPackage o)) with
    | .error e => .error e
    | .ok packages => .ok ⟨protoMessage, packages⟩

/-- `PackageSet.WithoutBeta`, internal/extract/extract.go:51-53. -/
def withoutBeta (o : Order) (p : XPackageSet) : Except Err XPackageSet :=
  newPackageSet o p.proto true

end Verif.Extract
