import Verif.Spec.Tree
import Verif.Model.LintConfig

/-!
# Specification: what a rule reports
-/

namespace Verif.Spec

open Verif Proto Lint Str

/-- Where a failure is. -/
def place (f : Text.Failure) : Position := ⟨f.filename, f.line, f.column⟩

/-- On files with the property `ok` the rule reports failures under its name exactly at these
places of each file, in some order; it does not crash and gives no error. -/
def ReportsOn (ok : FileDescriptor → Prop) (l : Linter) (places : FileDescriptor → List Position) :
    Prop :=
  ∀ dirPath ds, (∀ d ∈ ds, ok d) → ∃ fs, l.check dirPath ds = some (.ok fs) ∧
    (fs.map place).Perm (ds.flatMap places) ∧ ∀ f ∈ fs, f.lintID = l.id

/-- The same on all files. -/
def Reports (l : Linter) (places : FileDescriptor → List Position) : Prop :=
  ReportsOn (fun _ => True) l places

/-! ## The things in a file -/

def asMessage : Node → Option Message
  | ⟨_, .message m _⟩ => some m
  | _ => none

def asEnum : Node → Option Enum
  | ⟨_, .enum e _⟩ => some e
  | _ => none

def asEnumValue : Node → Option EnumField
  | ⟨_, .enumField f _⟩ => some f
  | _ => none

/-- Normal fields, map fields and the fields of oneofs. -/
def asField : Node → Option Field
  | ⟨_, .normalField f⟩ => some f.field
  | ⟨_, .mapField f⟩ => some f.field
  | ⟨_, .oneofField f⟩ => some f
  | _ => none

def asNonMapField : Node → Option Field
  | ⟨_, .normalField f⟩ => some f.field
  | ⟨_, .oneofField f⟩ => some f
  | _ => none

def asOneof : Node → Option Oneof
  | ⟨_, .oneof o _⟩ => some o
  | _ => none

def asService : Node → Option Service
  | ⟨_, .service s _⟩ => some s
  | _ => none

def asRPC : Node → Option RPC
  | ⟨_, .rpc r _⟩ => some r
  | _ => none

def asImport : Node → Option Import
  | ⟨_, .import i⟩ => some i
  | _ => none

def asReserved : Node → Option Reserved
  | ⟨_, .reserved r⟩ => some r
  | _ => none

def asPackage : Node → Option Package
  | ⟨_, .package p⟩ => some p
  | _ => none

def asSyntax : Node → Option Syntax
  | ⟨_, .syntax s⟩ => some s
  | _ => none

def asOption : Node → Option Opt
  | ⟨_, .option o⟩ => some o
  | _ => none

/-- An option of an enum itself. -/
def asEnumOption : Node → Option Opt
  | ⟨.enum _ _ :: _, .option o⟩ => some o
  | _ => none

/-- Nothing is around. -/
def nothing : Element → Bool := fun _ => false

/-- Messages at any depth of messages. -/
def messages (d : FileDescriptor) : List Message := (inside isMessage d).filterMap asMessage

/-- Enums at any depth of messages. -/
def enums (d : FileDescriptor) : List Enum := (inside isMessage d).filterMap asEnum

/-- Values of these enums. -/
def enumValues (d : FileDescriptor) : List EnumField :=
  (inside (fun e => isMessage e || isEnum e) d).filterMap asEnumValue

/-- The names of the messages and enums around a node, outermost first. -/
def namesAround : List Element → List Str
  | [] => []
  | .message m _ :: around => namesAround around ++ [m.name]
  | .enum e _ :: around => namesAround around ++ [e.name]
  | _ :: around => namesAround around

/-- An enum value with the names around it. -/
def asNamedValue (n : Node) : Option (List Str × EnumField) :=
  (asEnumValue n).map fun f => (namesAround n.around, f)

/-- The values of these enums with the names of the messages and of the enum around them. -/
def namedValues (d : FileDescriptor) : List (List Str × EnumField) :=
  (inside (fun e => isMessage e || isEnum e) d).filterMap asNamedValue

/-- An enum value with its enum. -/
def asValueOfEnum : Node → Option (Enum × EnumField)
  | ⟨.enum e _ :: _, .enumField f _⟩ => some (e, f)
  | _ => none

/-- The values of these enums with their enums. -/
def valuesOfEnums (d : FileDescriptor) : List (Enum × EnumField) :=
  (inside (fun e => isMessage e || isEnum e) d).filterMap asValueOfEnum

/-- Options of these enums. -/
def enumOptions (d : FileDescriptor) : List Opt :=
  (inside (fun e => isMessage e || isEnum e) d).filterMap asEnumOption

/-- Reserved declarations of these messages and enums. -/
def reservedDecls (d : FileDescriptor) : List Reserved :=
  (inside (fun e => isMessage e || isEnum e) d).filterMap asReserved

/-- Fields of these messages, in oneofs or not. -/
def fields (d : FileDescriptor) : List Field :=
  (inside (fun e => isMessage e || isOneof e) d).filterMap asField

/-- The same without map fields. -/
def nonMapFields (d : FileDescriptor) : List Field :=
  (inside (fun e => isMessage e || isOneof e) d).filterMap asNonMapField

/-- Oneofs of these messages. -/
def oneofs (d : FileDescriptor) : List Oneof := (inside isMessage d).filterMap asOneof

def services (d : FileDescriptor) : List Service := (inside nothing d).filterMap asService

def rpcs (d : FileDescriptor) : List RPC := (inside isService d).filterMap asRPC

def imports (d : FileDescriptor) : List Import := (inside nothing d).filterMap asImport

def packages (d : FileDescriptor) : List Package := (inside nothing d).filterMap asPackage

def syntaxes (d : FileDescriptor) : List Syntax := (inside nothing d).filterMap asSyntax

/-- The options of the file itself. -/
def fileOptions (d : FileDescriptor) : List Opt := (inside nothing d).filterMap asOption

/-! ## Parts of an element -/

def positionOf : Element → Position
  | .comment c => c.position
  | .syntax s => s.position
  | .package p => p.position
  | .option o => o.position
  | .import i => i.position
  | .message m _ => m.position
  | .enum e _ => e.position
  | .enumField f _ => f.position
  | .service s _ => s.position
  | .rpc r _ => r.position
  | .normalField f => f.field.position
  | .mapField f => f.field.position
  | .oneof o _ => o.position
  | .oneofField f => f.position
  | .reserved r => r.position
  | .extensions e => e.position
  | .group g _ => g.position

/-- The comment above; a comment on its own is above itself. -/
def commentOf : Element → Option Comment
  | .comment c => some c
  | .syntax s => s.comment
  | .package p => p.comment
  | .option o => o.comment
  | .import i => i.comment
  | .message m _ => m.comment
  | .enum e _ => e.comment
  | .enumField f _ => f.comment
  | .service s _ => s.comment
  | .rpc r _ => r.comment
  | .normalField f => f.field.comment
  | .mapField f => f.field.comment
  | .oneof o _ => o.comment
  | .oneofField f => f.comment
  | .reserved r => r.comment
  | .extensions e => e.comment
  | .group g _ => g.comment

/-- The comment behind, on the same line. -/
def inlineCommentOf : Element → Option Comment
  | .syntax s => s.inlineComment
  | .package p => p.inlineComment
  | .option o => o.inlineComment
  | .import i => i.inlineComment
  | .enumField f _ => f.inlineComment
  | .rpc r _ => r.inlineComment
  | .normalField f => f.field.inlineComment
  | .mapField f => f.field.inlineComment
  | .oneofField f => f.inlineComment
  | .reserved r => r.inlineComment
  | .extensions e => e.inlineComment
  | _ => none

/-! ## Well-known types -/

/-- The files that come with protoc. -/
def wellKnown : List Str :=
  [s%"any", s%"api", s%"compiler/plugin", s%"descriptor", s%"duration", s%"empty", s%"field_mask",
   s%"source_context", s%"struct", s%"timestamp", s%"type", s%"wrappers"].map fun name =>
    s%"google/protobuf/" ++ name ++ s%".proto"

/-! ## Names -/

/-- Not empty, only ASCII letters and digits. -/
def CamelCase (s : Str) : Prop := s ≠ [] ∧ ∀ c ∈ s, isLetter c = true ∨ isDigit c = true

/-- The first character is an ASCII upper case letter. -/
def Capitalized (s : Str) : Prop := ∃ c ∈ s.head?, isUpper c = true

/-- Not empty, no underscore at the ends, only ASCII lower case letters, digits and
underscores. -/
def LowerSnakeCase (s : Str) : Prop :=
  s ≠ [] ∧ s.head? ≠ some '_' ∧ s.getLast? ≠ some '_' ∧
    ∀ c ∈ s, isLower c = true ∨ isDigit c = true ∨ c = '_'

/-- The same with upper case letters. -/
def UpperSnakeCase (s : Str) : Prop :=
  s ≠ [] ∧ s.head? ≠ some '_' ∧ s.getLast? ≠ some '_' ∧
    ∀ c ∈ s, isUpper c = true ∨ isDigit c = true ∨ c = '_'

/-- Not empty and without upper case letters. -/
def Lowercase (s : Str) : Prop := s ≠ [] ∧ ∀ c ∈ s, isUpper c = false

/-- Not empty and without lower case letters. -/
def Uppercase (s : Str) : Prop := s ≠ [] ∧ ∀ c ∈ s, isLower c = false

/-- The word `descriptor` in upper or lower case, between underscores or not. -/
def Descriptorish (s : Str) : Prop :=
  ∃ left word right : Str, s = left ++ word ++ right ∧ (∀ c ∈ left, c = '_') ∧
    (∀ c ∈ right, c = '_') ∧ toLower word = s%"descriptor"

/-- Only ASCII lower case letters, digits and periods. -/
def PackageLowerCase (s : Str) : Prop := ∀ c ∈ s, isLower c = true ∨ isDigit c = true ∨ c = '.'

/-- The part of a path after its last slash. -/
def lastComponent (path : Str) : Str := (path.reverse.takeWhile (· ≠ '/')).reverse

/-- The name of a proto file without `.proto`. -/
def fileStem (path : Str) : Str := (lastComponent path).take ((lastComponent path).length - 6)

/-- The comment begins with the name: its first line is `// name …`. -/
def CommentNames (comment : Option Comment) (name : Str) : Prop :=
  ∃ c first rest text, comment = some c ∧ c.lines = first :: rest ∧
    first = s%" " ++ name ++ s%" " ++ text

/-- A character that may begin a sentence: an ASCII upper case letter or digit. The rule
looks at the first byte of the UTF-8 text only, so it also lets pass every character whose
encoding begins with a byte that is an upper case letter in Latin-1. -/
def BeginsSentence (c : Char) : Prop :=
  isUpper c = true ∨ isDigit c = true ∨
    (0x80 ≤ c.toNat ∧ c.toNat < 0x7C0 ∧ ¬(0x5C0 ≤ c.toNat ∧ c.toNat < 0x600))

/-- The comment has a sentence that begins on the first line: after white space comes a
character that may begin a sentence, and some line has a period. -/
def CommentSentence (comment : Option Comment) : Prop :=
  ∃ c first rest white ch text, comment = some c ∧ c.lines = first :: rest ∧
    first = white ++ ch :: text ∧ (∀ w ∈ white, isSpace w = true) ∧ isSpace ch = false ∧
    BeginsSentence ch ∧ ∃ line ∈ c.lines, '.' ∈ line

instance (s : Str) : Decidable (CamelCase s) := by unfold CamelCase; infer_instance
instance (s : Str) : Decidable (Capitalized s) := by
  unfold Capitalized
  cases s with
  | nil => exact .isFalse (by simp)
  | cons c t => exact decidable_of_iff (isUpper c = true) (by simp)
instance (s : Str) : Decidable (LowerSnakeCase s) := by unfold LowerSnakeCase; infer_instance
instance (s : Str) : Decidable (UpperSnakeCase s) := by unfold UpperSnakeCase; infer_instance
instance (s : Str) : Decidable (PackageLowerCase s) := by unfold PackageLowerCase; infer_instance
instance (s : Str) : Decidable (Lowercase s) := by unfold Lowercase; infer_instance
instance (s : Str) : Decidable (Uppercase s) := by unfold Uppercase; infer_instance

end Verif.Spec
