import Verif.Go.Str

/-!
# Model of internal/reflect/gen/uber/proto/reflect/v1/reflect.pb.go

The messages of the reflect schema. Pointers between them are never nil: the
objects are built by internal/reflect/reflect.go.
-/

namespace Verif.Reflect

/-- `EnumValue`. -/
structure EnumValue where
  name : Str
  number : Int
deriving DecidableEq

/-- `Enum`. -/
structure Enum where
  name : Str
  values : List EnumValue
deriving DecidableEq

/-- `MessageField`. Labels and types are the numbers of descriptor.proto. -/
structure Field where
  name : Str
  number : Int
  label : Int
  type : Int
  typeName : Str
deriving DecidableEq

/-- `MessageOneof`. -/
structure Oneof where
  name : Str
  fieldNumbers : List Int
deriving DecidableEq

/-- `Message`. -/
inductive Message where
  | mk (name : Str) (nestedMessages : List Message) (nestedEnums : List Enum)
      (fields : List Field) (oneofs : List Oneof)

namespace Message
def name : Message → Str | mk n _ _ _ _ => n
def nestedMessages : Message → List Message | mk _ n _ _ _ => n
def nestedEnums : Message → List Enum | mk _ _ e _ _ => e
def fields : Message → List Field | mk _ _ _ f _ => f
def oneofs : Message → List Oneof | mk _ _ _ _ o => o
end Message

/-- `ServiceMethod`. -/
structure Method where
  name : Str
  requestTypeName : Str
  responseTypeName : Str
  clientStreaming : Bool
  serverStreaming : Bool
deriving DecidableEq

/-- `Service`. -/
structure Service where
  name : Str
  methods : List Method
deriving DecidableEq

/-- `Package`. -/
structure Package where
  name : Str
  dependencyNames : List Str
  enums : List Enum
  messages : List Message
  services : List Service

/-- `PackageSet`. -/
abbrev PackageSet := List Package

end Verif.Reflect
