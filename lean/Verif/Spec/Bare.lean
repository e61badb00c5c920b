import Verif.Spec.FormatText
import Verif.Spec.Reader

/-!
# Specification: declarations without comments, and files as the parser gives them
-/

namespace Verif.Spec

open Verif Str Proto Format

/-! ## Without comments -/

mutual

/-- A value. Only strings have a quote. -/
def bareValue : Literal → Literal
  | .mk source isString quote array map =>
    match array, map with
    | [], [] => if isString then .mk source true quote [] [] else .plain source
    | a :: as, _ => .mk [] false '"' (bareList (a :: as)) []
    | [], m :: ms => .mk [] false '"' [] (bareEntries (m :: ms))

def bareList : List Literal → List Literal
  | [] => []
  | l :: ls => bareValue l :: bareList ls

def bareEntries : List (Str × Literal) → List (Str × Literal)
  | [] => []
  | l :: ls => bareEntry l :: bareEntries ls

def bareEntry : Str × Literal → Str × Literal
  | (name, l) => (name, bareValue l)

end

def bareOption (o : Opt) : Opt := { name := o.name, constant := bareValue o.constant }

def bareField (f : Field) : Field :=
  { name := f.name, type := f.type, sequence := f.sequence, options := f.options.map bareOption }

/-- A range up to the maximum has no other end. -/
def bareRange (r : Range) : Range := if r.max then ⟨r.start, r.start, true⟩ else r

mutual

/-- A declaration without comments and positions. -/
def bare : Element → Element
  | .comment c => .comment c
  | .syntax s => .syntax { value := s.value }
  | .package p => .package { name := p.name }
  | .option o => .option (bareOption o)
  | .import i => .import { filename := i.filename, kind := i.kind }
  | .message m es => .message { name := m.name, isExtend := m.isExtend } (bareAll es)
  | .enum e es => .enum { name := e.name } (bareAll es)
  | .enumField f es => .enumField { name := f.name, integer := f.integer } (bareAll es)
  | .service s es => .service { name := s.name } (bareAll es)
  | .rpc r es =>
    .rpc { name := r.name, requestType := r.requestType, streamsRequest := r.streamsRequest,
           returnsType := r.returnsType, streamsReturns := r.streamsReturns } (bareAll es)
  | .normalField f => .normalField { f with field := bareField f.field }
  | .mapField f => .mapField { f with field := bareField f.field }
  | .oneof o es => .oneof { name := o.name } (bareAll es)
  | .oneofField f => .oneofField (bareField f)
  | .reserved r => .reserved { ranges := r.ranges.map bareRange, fieldNames := r.fieldNames }
  | .extensions e => .extensions { ranges := e.ranges.map bareRange }
  | .group g es => .group { name := g.name, optional := g.optional, sequence := g.sequence } (bareAll es)

/-- Declarations without the comments among them. -/
def bareAll : List Element → List Element
  | [] => []
  | .comment _ :: es => bareAll es
  | e :: es => bare e :: bareAll es

end

/-! ## Files as the parser gives them -/

/-- A name, keyword or number. -/
def IsWord (s : Str) : Prop := s ≠ [] ∧ ∀ c ∈ s, isWordChar c = true

/-- The name of an option or an entry, such as `(foo.bar).baz` or `[foo.bar]`. -/
def IsName (s : Str) : Prop :=
  s ≠ [] ∧ ∀ c ∈ s, isWordChar c = true ∨ c = '(' ∨ c = ')' ∨ c = '[' ∨ c = ']'

/-- The text can be between these quotes. -/
def insideQuotes (q : Char) : Str → Bool
  | [] => true
  | ['\\'] => false
  | '\\' :: c :: s => c != '\n' && insideQuotes q s
  | c :: s => c != q && c != '\n' && insideQuotes q s

/-- The lines of a comment are lines. -/
def CommentFits (c : Option Comment) : Prop := ∀ l ∈ commentStrings c, '\n' ∉ l

mutual

/-- A value that is not empty. -/
def ValueFits : Literal → Prop
  | .mk source isString quote array map =>
    match array, map with
    | [], [] =>
      if isString then (quote = '"' ∨ quote = '\'') ∧ insideQuotes quote source = true else IsWord source
    | a :: as, _ => ListFits (a :: as)
    | [], m :: ms => EntriesFit (m :: ms)

def ListFits : List Literal → Prop
  | [] => True
  | l :: ls => ValueFits l ∧ ListFits ls

def EntriesFit : List (Str × Literal) → Prop
  | [] => True
  | l :: ls => EntryFits l ∧ EntriesFit ls

def EntryFits : Str × Literal → Prop
  | (name, l) => IsName name ∧ ValueFits l

end

/-- An option with a name and a value. -/
structure OptionFits (o : Opt) : Prop where
  comment : CommentFits o.comment
  inlineComment : CommentFits o.inlineComment
  name : IsName o.name
  value : ValueFits o.constant

/-- A field with a name and a type. -/
structure FieldFits (f : Field) : Prop where
  comment : CommentFits f.comment
  inlineComment : CommentFits f.inlineComment
  name : IsWord f.name
  type : IsWord f.type
  options : ∀ o ∈ f.options, OptionFits o

/-- In proto2 a field has one label. In proto3 it is repeated or has no label. A field whose type
is like a word that begins something else has a label. -/
def LabelFits (isProto2 : Bool) (f : NormalField) : Prop :=
  f.field.type ≠ s%"group" ∧
  if isProto2 then
    (f.repeated, f.optional, f.required) ∈ [(true, false, false), (false, true, false), (false, false, true)]
  else f.optional = false ∧ f.required = false ∧ (f.repeated = false → f.field.type ∉ messageWords)

/-- The declaration is a comment or an option. -/
def OnlyOption : Element → Prop
  | .comment _ => True
  | .option o => OptionFits o
  | _ => False

mutual

/-- A declaration that may be there, and that is named as protobuf allows. -/
def ElementFits (isProto2 : Bool) (around : Around) : Element → Prop
  | .comment c => CommentFits (some c)
  | .syntax s => around = .none ∧ CommentFits s.comment ∧ CommentFits s.inlineComment ∧
      insideQuotes '"' s.value = true
  | .package p => around = .none ∧ CommentFits p.comment ∧ CommentFits p.inlineComment ∧ IsWord p.name
  | .option o => OptionFits o
  | .import i => around = .none ∧ CommentFits i.comment ∧ CommentFits i.inlineComment ∧
      insideQuotes '"' i.filename = true ∧ i.kind ∈ [[], s%"public", s%"weak"]
  | .message m es => (around = .none ∨ holdsMessages around) ∧ CommentFits m.comment ∧ IsWord m.name ∧
      ElementsFit isProto2 .message es
  | .enum e es => (around = .none ∨ holdsMessages around) ∧ CommentFits e.comment ∧ IsWord e.name ∧
      ElementsFit isProto2 .enum es
  | .enumField f es => around = .enum ∧ CommentFits f.comment ∧ CommentFits f.inlineComment ∧
      IsWord f.name ∧ f.name ∉ [s%"option", s%"reserved"] ∧ ∀ e ∈ es, OnlyOption e
  | .service s es => around = .none ∧ CommentFits s.comment ∧ IsWord s.name ∧
      ElementsFit isProto2 .service es
  | .rpc r es => around = .service ∧ CommentFits r.comment ∧ CommentFits r.inlineComment ∧
      IsWord r.name ∧ IsWord r.requestType ∧ IsWord r.returnsType ∧ ∀ e ∈ es, OnlyOption e
  | .normalField f => holdsMessages around ∧ FieldFits f.field ∧ LabelFits isProto2 f
  | .mapField f => holdsMessages around ∧ FieldFits f.field ∧ IsWord f.keyType
  | .oneof o es => holdsMessages around ∧ CommentFits o.comment ∧ IsWord o.name ∧
      ElementsFit isProto2 .oneof es
  | .oneofField f => around = .oneof ∧ FieldFits f ∧ f.type ∉ [s%"option", s%"group"]
  | .reserved r => (around = .enum ∨ holdsMessages around) ∧ CommentFits r.comment ∧
      CommentFits r.inlineComment ∧ (r.ranges = [] ↔ r.fieldNames ≠ []) ∧
      ∀ n ∈ r.fieldNames, insideQuotes '"' n = true
  | .extensions e => holdsMessages around ∧ CommentFits e.comment ∧ CommentFits e.inlineComment ∧ e.ranges ≠ []
  | .group g es => (around = .oneof ∧ g.optional = false ∨ holdsMessages around) ∧ CommentFits g.comment ∧ IsWord g.name ∧
      ElementsFit isProto2 .group es

def ElementsFit (isProto2 : Bool) (around : Around) : List Element → Prop
  | [] => True
  | e :: es => ElementFits isProto2 around e ∧ ElementsFit isProto2 around es

end

/-- The declarations of a file, under the rules of the syntax the file has. -/
def FileFits (es : List Element) : Prop :=
  ∀ isProto2, proto2Of es = some isProto2 → ElementsFit isProto2 .none es

/-- The text has nothing that ends a string or its line. -/
def Quotable (s : Str) : Prop := ∀ c ∈ s, c ≠ '"' ∧ c ≠ '\\' ∧ c ≠ '\n'

end Verif.Spec
