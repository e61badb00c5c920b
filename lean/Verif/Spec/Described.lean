import Verif.Spec.Bare
import Verif.Spec.Exec
import Verif.Spec.Redistribution

/-!
# Specification: what protoc makes of a file

The file descriptor of a parsed file. How the name of a type is looked up, how the message of a map
entry and the field of a group are named, and what else is in a descriptor (the options, the syntax,
the positions) are parameters: nothing here depends on them. Extensions are not described, because
prototool does not look at them.
-/

namespace Verif.Spec

open Verif Str Proto Format Descriptor

/-- The parameters. `resolve` is given the full names that all files declare, with 11 for messages
and 14 for enums, the names around, outermost first, and the written type. It gives the number of the
type and the full name. -/
structure Protoc where
  resolve : List (Str × Int) → List Str → Str → Int × Str
  entryName : Str → Str
  groupField : Str → Str
  rest : List Element → Str

/-- The full name of what is declared there. -/
def nameAt (scope : List Str) (name : Str) : Str := (scope ++ [name]).flatMap fun n => '.' :: n

section

variable (P : Protoc) (names : List (Str × Int))

/-- The label as a number: optional, required, repeated. -/
def labelNumber (f : NormalField) : Int := if f.repeated then 3 else if f.required then 2 else 1

/-- A field of this written type. -/
def fieldDesc (scope : List Str) (name : Str) (number label : Int) (type : Str) (oneof : Option Nat) : FieldDesc :=
  let r := P.resolve names scope type
  ⟨name, number, label, r.1, r.2, oneof⟩

/-- The fields that one declaration in a oneof stands for. -/
def oneofFields (scope : List Str) (i : Nat) : Element → List FieldDesc
  | .oneofField f => [fieldDesc P names scope f.name f.sequence 1 f.type (some i)]
  | .group g _ => [⟨P.groupField g.name, g.sequence, 1, 10, nameAt scope g.name, some i⟩]
  | _ => []

/-- The fields of a message; `i` oneofs come before. -/
def fieldDescs (scope : List Str) (i : Nat) : List Element → List FieldDesc
  | [] => []
  | .normalField f :: es =>
    fieldDesc P names scope f.field.name f.field.sequence (labelNumber f) f.field.type none :: fieldDescs scope i es
  | .mapField f :: es =>
    ⟨f.field.name, f.field.sequence, 3, 11, nameAt scope (P.entryName f.field.name), none⟩ :: fieldDescs scope i es
  | .group g _ :: es =>
    ⟨P.groupField g.name, g.sequence, 1, 10, nameAt scope g.name, none⟩ :: fieldDescs scope i es
  | .oneof _ os :: es => os.flatMap (oneofFields P names scope i) ++ fieldDescs scope (i + 1) es
  | _ :: es => fieldDescs scope i es

/-- The oneofs that the declaration stands for. -/
def oneofDescs : Element → List Str
  | .oneof o _ => [o.name]
  | _ => []

/-- The enum values that the declaration stands for. -/
def valueDescs : Element → List Reflect.EnumValue
  | .enumField f _ => [⟨f.name, f.integer⟩]
  | _ => []

/-- The enums that the declaration stands for. -/
def enumDescs : Element → List Reflect.Enum
  | .enum e es => [⟨e.name, es.flatMap valueDescs⟩]
  | _ => []

/-- The methods that the declaration stands for. -/
def methodDescs (scope : List Str) : Element → List MethodDesc
  | .rpc r _ => [⟨r.name, (P.resolve names scope r.requestType).2, (P.resolve names scope r.returnsType).2,
      r.streamsRequest, r.streamsReturns⟩]
  | _ => []

/-- The services that the declaration stands for. -/
def serviceDescs (scope : List Str) : Element → List ServiceDesc
  | .service s es => [⟨s.name, es.flatMap (methodDescs P names (scope ++ [s.name]))⟩]
  | _ => []

/-- The message of the entries of a map. -/
def entryDesc (scope : List Str) (f : MapField) : MessageDesc :=
  .mk (P.entryName f.field.name) [] []
    [fieldDesc P names scope s%"key" 1 1 f.keyType none, fieldDesc P names scope s%"value" 2 1 f.field.type none] []

mutual

/-- The messages that the declaration stands for. -/
def messageDescs (scope : List Str) : Element → List MessageDesc
  | .message m es =>
    if m.isExtend then []
    else [.mk m.name (messagesDescs (scope ++ [m.name]) es) (es.flatMap enumDescs)
      (fieldDescs P names (scope ++ [m.name]) 0 es) (es.flatMap oneofDescs)]
  | .group g es =>
    [.mk g.name (messagesDescs (scope ++ [g.name]) es) (es.flatMap enumDescs)
      (fieldDescs P names (scope ++ [g.name]) 0 es) (es.flatMap oneofDescs)]
  | .mapField f => [entryDesc P names scope f]
  | .oneof _ es => messagesDescs scope es
  | _ => []

def messagesDescs (scope : List Str) : List Element → List MessageDesc
  | [] => []
  | e :: es => messageDescs scope e ++ messagesDescs scope es

end

mutual

/-- The full names that the declaration declares. -/
def namesIn (scope : List Str) : Element → List (Str × Int)
  | .message m es => if m.isExtend then [] else (nameAt scope m.name, 11) :: namesAll (scope ++ [m.name]) es
  | .group g es => (nameAt scope g.name, 11) :: namesAll (scope ++ [g.name]) es
  | .oneof _ es => namesAll scope es
  | .enum e _ => [(nameAt scope e.name, 14)]
  | _ => []

def namesAll (scope : List Str) : List Element → List (Str × Int)
  | [] => []
  | e :: es => namesIn scope e ++ namesAll scope es

end

/-- The package of a file. -/
def packageOf (es : List Element) : Str := ((packagesAmong es).map (·.name)).headD []

/-- The names around what is at the top of a file. -/
def topScope (es : List Element) : List Str := if packageOf es = [] then [] else [packageOf es]

/-- The descriptor of the file with the name and the declarations, given the names that all files declare. -/
def describe (name : Str) (es : List Element) : FileDesc where
  name := name
  package := packageOf es
  dependency := (importsAmong es).map (·.filename)
  messages := messagesDescs P names (topScope es) es
  enums := es.flatMap enumDescs
  services := es.flatMap (serviceDescs P names (topScope es))
  rest := P.rest es

end

/-- The descriptors describe these files, each given by the name that it is imported by and its path. -/
def Described (P : Protoc) (h : Exec.Host) (files : List (Str × Str)) (disk : Exec.Disk) (all : List FileDesc) : Prop :=
  ∃ elements : Str × Str → List Element,
    (∀ x ∈ files, ∃ content, disk x.2 = some content ∧ h.parse x.2 content = .ok (elements x)) ∧
    ∀ f, f ∈ all ↔ ∃ x ∈ files,
      f = describe P (files.flatMap fun y => namesAll (topScope (elements y)) (elements y)) x.1 (elements x)

/-- The descriptors are the same up to the order of the imports and to what break check does not look at. -/
structure SameFile (f g : FileDesc) : Prop where
  name : g.name = f.name
  package : g.package = f.package
  dependency : g.dependency.Perm f.dependency
  messages : g.messages = f.messages
  enums : g.enums = f.enums
  services : g.services = f.services

/-- The parser reads a formatted text as the grammar says. -/
def ReadsBack (h : Exec.Host) (path text : Str) : Prop :=
  ∀ read, readFile text = some read → ∃ es, h.parse path text = .ok es ∧ bareAll es = read

/-- What `--fix` needs: a header made of comments, and a path and a prefix that can be between quotes. -/
def Fixable (q : Params) : Prop :=
  q.fix ≠ fixNone → tokensOf q.fileHeader = some [] ∧ Quotable q.filename ∧ Quotable q.javaPackagePrefix

end Verif.Spec
