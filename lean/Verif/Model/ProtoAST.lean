import Verif.Go.Strconv

/-!
# The syntax tree of a parsed file

prototool parses files with the external library github.com/emicklei/proto v1.9.0
(go.mod). The parser is not modelled: a parsed file is any value of the types below.
They have the fields of the library's types that internal/lint, internal/format and
internal/exec read.

Go nodes have a `Parent` pointer, which the parser sets to the enclosing node. Here
the parent is the enclosing node of the tree, handed to a visitor as `Parent`.
-/

namespace Verif.Proto

open Verif

/-- `scanner.Position` of text/scanner, without the byte offset. -/
structure Position where
  filename : Str := []
  line : Int := 0
  column : Int := 0
deriving DecidableEq, Repr

/-- `proto.Comment`. -/
structure Comment where
  position : Position
  lines : List Str
  cstyle : Bool := false
deriving DecidableEq, Repr

/-- `proto.Literal`. `orderedMap` is the list of `NamedLiteral`s. -/
inductive Literal where
  | mk (source : Str) (isString : Bool) (quoteRune : Char) (array : List Literal)
      (orderedMap : List (Str × Literal))

/-- `Literal.Source`. -/
def Literal.source : Literal → Str
  | .mk s _ _ _ _ => s

/-- `Literal.Array`. -/
def Literal.array : Literal → List Literal
  | .mk _ _ _ a _ => a

/-- `Literal.OrderedMap`. -/
def Literal.orderedMap : Literal → List (Str × Literal)
  | .mk _ _ _ _ m => m

/-- `Literal.SourceRepresentation` of the library: the source between quotes when it is
a string. -/
def Literal.sourceRepresentation : Literal → Str
  | .mk s isString q _ _ => if isString then q :: (s ++ [q]) else s

/-- A literal with only a source that is not quoted. -/
def Literal.plain (s : Str) : Literal := .mk s false '"' [] []

/-- A string literal in double quotes. -/
def Literal.str (s : Str) : Literal := .mk s true '"' [] []

/-- `proto.Option`. -/
structure Opt where
  position : Position := {}
  comment : Option Comment := none
  name : Str
  constant : Literal
  inlineComment : Option Comment := none

/-- `proto.Syntax`. -/
structure Syntax where
  position : Position := {}
  comment : Option Comment := none
  value : Str
  inlineComment : Option Comment := none
deriving DecidableEq, Repr

/-- `proto.Package`. -/
structure Package where
  position : Position := {}
  comment : Option Comment := none
  name : Str
  inlineComment : Option Comment := none
deriving DecidableEq, Repr

/-- `proto.Import`. -/
structure Import where
  position : Position := {}
  comment : Option Comment := none
  filename : Str
  kind : Str := []
  inlineComment : Option Comment := none
deriving DecidableEq, Repr

/-- `proto.Message` without its elements. -/
structure Message where
  position : Position := {}
  comment : Option Comment := none
  name : Str
  isExtend : Bool := false
deriving DecidableEq, Repr

/-- `proto.Enum` without its elements. -/
structure Enum where
  position : Position := {}
  comment : Option Comment := none
  name : Str
deriving DecidableEq, Repr

/-- `proto.EnumField` without its elements. -/
structure EnumField where
  position : Position := {}
  comment : Option Comment := none
  name : Str
  integer : Int
  inlineComment : Option Comment := none
deriving DecidableEq, Repr

/-- `proto.Service` without its elements. -/
structure Service where
  position : Position := {}
  comment : Option Comment := none
  name : Str
deriving DecidableEq, Repr

/-- `proto.RPC` without its elements. -/
structure RPC where
  position : Position := {}
  comment : Option Comment := none
  name : Str
  requestType : Str
  streamsRequest : Bool := false
  returnsType : Str
  streamsReturns : Bool := false
  inlineComment : Option Comment := none
deriving DecidableEq, Repr

/-- `proto.Field`. -/
structure Field where
  position : Position := {}
  comment : Option Comment := none
  name : Str
  type : Str
  sequence : Int
  options : List Opt := []
  inlineComment : Option Comment := none

/-- `proto.NormalField`. -/
structure NormalField where
  field : Field
  repeated : Bool := false
  optional : Bool := false
  required : Bool := false

/-- `proto.MapField`. -/
structure MapField where
  field : Field
  keyType : Str

/-- `proto.Oneof` without its elements. -/
structure Oneof where
  position : Position := {}
  comment : Option Comment := none
  name : Str
deriving DecidableEq, Repr

/-- `proto.Range`. -/
structure Range where
  start : Int
  stop : Int
  max : Bool := false
deriving DecidableEq, Repr

/-- `Range.SourceRepresentation` of the library. -/
def Range.sourceRepresentation (r : Range) : Str :=
  itoa r.start ++
    (if r.max then s%" to max" else if r.start ≠ r.stop then s%" to " ++ itoa r.stop else [])

/-- `proto.Reserved`. -/
structure Reserved where
  position : Position := {}
  comment : Option Comment := none
  ranges : List Range := []
  fieldNames : List Str := []
  inlineComment : Option Comment := none
deriving DecidableEq, Repr

/-- `proto.Extensions`. -/
structure Extensions where
  position : Position := {}
  comment : Option Comment := none
  ranges : List Range
  inlineComment : Option Comment := none
deriving DecidableEq, Repr

/-- `proto.Group` without its elements. -/
structure Group where
  position : Position := {}
  comment : Option Comment := none
  name : Str
  optional : Bool := false
  sequence : Int
deriving DecidableEq, Repr

/-- `proto.Visitee`: a node of the syntax tree. -/
inductive Element where
  | comment (c : Comment)
  | syntax (s : Syntax)
  | package (p : Package)
  | option (o : Opt)
  | import (i : Import)
  | message (m : Message) (elements : List Element)
  | enum (e : Enum) (elements : List Element)
  | enumField (f : EnumField) (elements : List Element)
  | service (s : Service) (elements : List Element)
  | rpc (r : RPC) (elements : List Element)
  | normalField (f : NormalField)
  | mapField (f : MapField)
  | oneof (o : Oneof) (elements : List Element)
  | oneofField (f : Field)
  | reserved (r : Reserved)
  | extensions (e : Extensions)
  | group (g : Group) (elements : List Element)

/-- The dynamic type of a `Parent` pointer. The parent of a top level node is the file;
whether the library leaves it nil there makes no difference to prototool. -/
inductive Parent where
  | file
  | message (m : Message)
  | enum (e : Enum)
  | enumField (f : EnumField)
  | service (s : Service)
  | rpc (r : RPC)
  | field (f : Field)
  | oneof (o : Oneof)
  | group (g : Group)

end Verif.Proto
