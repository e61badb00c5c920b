import Verif.Model.ReflectTypes

/-!
# File descriptors

The part of descriptor.proto (github.com/golang/protobuf/protoc-gen-go/descriptor)
read by /repo. Absent optional scalars are their zero values, as the generated
getters return them. Enum descriptors have the shape of reflect enums.
-/

namespace Verif.Descriptor

open Verif

/-- `FieldDescriptorProto`. -/
structure FieldDesc where
  name : Str
  number : Int
  label : Int
  type : Int
  typeName : Str
  oneofIndex : Option Nat

/-- `DescriptorProto`; oneof declarations are their names. -/
inductive MessageDesc where
  | mk (name : Str) (nested : List MessageDesc) (enums : List Reflect.Enum)
      (fields : List FieldDesc) (oneofs : List Str)

namespace MessageDesc
def name : MessageDesc → Str | mk n _ _ _ _ => n
def nested : MessageDesc → List MessageDesc | mk _ n _ _ _ => n
def enums : MessageDesc → List Reflect.Enum | mk _ _ e _ _ => e
def fields : MessageDesc → List FieldDesc | mk _ _ _ f _ => f
def oneofs : MessageDesc → List Str | mk _ _ _ _ o => o
end MessageDesc

/-- `MethodDescriptorProto`. -/
structure MethodDesc where
  name : Str
  inputType : Str
  outputType : Str
  clientStreaming : Bool
  serverStreaming : Bool

/-- `ServiceDescriptorProto`. -/
structure ServiceDesc where
  name : Str
  methods : List MethodDesc

/-- `FileDescriptorProto`. `rest` stands for everything not modelled (options, syntax,
source info); it takes part in comparisons of whole files. -/
structure FileDesc where
  name : Str
  package : Str
  dependency : List Str
  messages : List MessageDesc
  enums : List Reflect.Enum
  services : List ServiceDesc
  rest : Str

/-- `FileDescriptorSet`. -/
abbrev FileSet := List FileDesc

end Verif.Descriptor
