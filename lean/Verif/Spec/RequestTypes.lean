import Verif.Spec.Grammar

/-! # Specification: the rules about request and response types -/

namespace Verif.Spec

open Verif Proto Lint Str

/-! ## Nodes in the order in which they end -/

mutual

/-- All nodes in a node that is inside `around`, and then the node itself. -/
def ending (around : List Element) : Element → List Node
  | .message m es => endingAll (.message m es :: around) es ++ [⟨around, .message m es⟩]
  | .enum e es => endingAll (.enum e es :: around) es ++ [⟨around, .enum e es⟩]
  | .enumField f es => endingAll (.enumField f es :: around) es ++ [⟨around, .enumField f es⟩]
  | .service s es => endingAll (.service s es :: around) es ++ [⟨around, .service s es⟩]
  | .rpc r es => endingAll (.rpc r es :: around) es ++ [⟨around, .rpc r es⟩]
  | .oneof o es => endingAll (.oneof o es :: around) es ++ [⟨around, .oneof o es⟩]
  | .group g es => endingAll (.group g es :: around) es ++ [⟨around, .group g es⟩]
  | .normalField f =>
      (f.field.options.map fun o => ⟨.normalField f :: around, .option o⟩) ++ [⟨around, .normalField f⟩]
  | .mapField f =>
      (f.field.options.map fun o => ⟨.mapField f :: around, .option o⟩) ++ [⟨around, .mapField f⟩]
  | .oneofField f =>
      (f.options.map fun o => ⟨.oneofField f :: around, .option o⟩) ++ [⟨around, .oneofField f⟩]
  | .comment c => [⟨around, .comment c⟩]
  | .syntax s => [⟨around, .syntax s⟩]
  | .package p => [⟨around, .package p⟩]
  | .option o => [⟨around, .option o⟩]
  | .import i => [⟨around, .import i⟩]
  | .reserved r => [⟨around, .reserved r⟩]
  | .extensions e => [⟨around, .extensions e⟩]

/-- The same for a list of elements. -/
def endingAll (around : List Element) : List Element → List Node
  | [] => []
  | e :: es => ending around e ++ endingAll around es

end

mutual

/-- How many fields an element of a message adds to it, counting those in oneofs. -/
def fieldCount : Element → Nat
  | .normalField _ | .mapField _ | .oneofField _ => 1
  | .oneof _ es => fieldCounts es
  | _ => 0

/-- The same for a list of elements. -/
def fieldCounts : List Element → Nat
  | [] => 0
  | e :: es => fieldCount e + fieldCounts es

end

/-! ## Messages and their names -/

/-- A message (or a block of extensions) with its name inside of its file and the number of
its fields. -/
structure NamedMessage where
  name : Str
  message : Message
  fields : Nat

def asNamedMessage : Node → Option NamedMessage
  | ⟨around, .message m es⟩ => some ⟨join s%"." (namesAround around ++ [m.name]), m, fieldCounts es⟩
  | _ => none

/-- The messages at any depth of messages, in the order in which they end. -/
def namedMessages (d : FileDescriptor) : List NamedMessage :=
  ((endingAll [] d.elements).filter fun n => n.around.all isMessage).filterMap asNamedMessage

/-- The elements that have no later element with the same key. -/
def lastBy {α κ : Type} [DecidableEq κ] (key : α → κ) : List α → List α
  | [] => []
  | a :: as => if ∃ b ∈ as, key b = key a then lastBy key as else a :: lastBy key as

/-- The types used as request or response. -/
def usedTypes (d : FileDescriptor) : List Str :=
  (rpcs d).flatMap fun r => [r.requestType, r.returnsType]

/-- The messages of the file itself. -/
def topMessages (d : FileDescriptor) : List Message := (inside nothing d).filterMap asMessage

/-- The enums of the file itself. -/
def topEnums (d : FileDescriptor) : List Enum := (inside nothing d).filterMap asEnum

/-- The last of them with this name. -/
def lastNamed (d : FileDescriptor) (name : Str) : Option Message :=
  ((topMessages d).filter fun m => m.name = name).getLast?

/-- Where REQUEST_RESPONSE_TYPES_AFTER_SERVICE reports for an RPC. -/
def afterPlaces (d : FileDescriptor) (r : RPC) : List Position :=
  (match lastNamed d r.requestType with
    | some m => if m.position.line < r.position.line then [m.position] else []
    | none => []) ++
  (match lastNamed d r.returnsType with
    | some m => if m.position.line < r.position.line then [m.position] else []
    | none => []) ++
  (match lastNamed d r.requestType, lastNamed d r.returnsType with
    | some req, some resp =>
      if resp.position.line < req.position.line then [resp.position] else []
    | _, _ => [])

/-! ## Repeated uses -/

/-- The uses of types as request or response, in the order of the file. -/
def uses (d : FileDescriptor) : List (Position × Str) :=
  (rpcs d).flatMap fun r => [(r.position, r.requestType), (r.position, r.returnsType)]

/-- Where a type is used that is in the list or has been used before. -/
def repeats (before : List Str) : List (Position × Str) → List Position
  | [] => []
  | (p, t) :: us => (if t ∈ before then [p] else []) ++ repeats (t :: before) us

end Verif.Spec
