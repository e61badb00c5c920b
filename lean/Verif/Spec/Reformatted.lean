import Verif.Spec.Bare
import Verif.Spec.Suppression
import Verif.Spec.RequestTypes

/-!
# Specification: a file and what is read from its formatted text
-/

namespace Verif.Spec

open Verif Str Proto Format Lint

/-! ## What the formatter keeps -/

def keptOption (keep : Option Comment → Option Comment) (o : Opt) : Opt :=
  { comment := keep o.comment, name := o.name, constant := bareValue o.constant
    inlineComment := keep o.inlineComment }

def keptField (keep : Option Comment → Option Comment) (f : Field) : Field :=
  { comment := keep f.comment, name := f.name, type := f.type, sequence := f.sequence
    options := f.options.map (keptOption keep), inlineComment := keep f.inlineComment }

mutual

/-- A declaration without positions, and of its comments what `keep` keeps. -/
def kept (keep : Option Comment → Option Comment) : Element → Element
  | .comment c => .comment c
  | .syntax s => .syntax { value := s.value, inlineComment := keep s.inlineComment }
  | .package p => .package { comment := keep p.comment, name := p.name, inlineComment := keep p.inlineComment }
  | .option o => .option (keptOption keep o)
  | .import i => .import { comment := keep i.comment, filename := i.filename, kind := i.kind
                           inlineComment := keep i.inlineComment }
  | .message m es => .message { comment := keep m.comment, name := m.name, isExtend := m.isExtend } (keptAll keep es)
  | .enum e es => .enum { comment := keep e.comment, name := e.name } (keptAll keep es)
  | .enumField f es => .enumField { comment := keep f.comment, name := f.name, integer := f.integer
                                    inlineComment := keep f.inlineComment } (keptAll keep es)
  | .service s es => .service { comment := keep s.comment, name := s.name } (keptAll keep es)
  | .rpc r es =>
    .rpc { comment := keep r.comment, name := r.name, requestType := r.requestType
           streamsRequest := r.streamsRequest, returnsType := r.returnsType
           streamsReturns := r.streamsReturns, inlineComment := keep r.inlineComment } (keptAll keep es)
  | .normalField f => .normalField { f with field := keptField keep f.field }
  | .mapField f => .mapField { f with field := keptField keep f.field }
  | .oneof o es => .oneof { comment := keep o.comment, name := o.name } (keptAll keep es)
  | .oneofField f => .oneofField (keptField keep f)
  | .reserved r => .reserved { comment := keep r.comment, ranges := r.ranges.map bareRange
                               fieldNames := r.fieldNames, inlineComment := keep r.inlineComment }
  | .extensions e => .extensions { comment := keep e.comment, ranges := e.ranges.map bareRange
                                   inlineComment := keep e.inlineComment }
  | .group g es => .group { comment := keep g.comment, name := g.name, optional := g.optional
                            sequence := g.sequence } (keptAll keep es)

/-- Declarations without the comments among them. -/
def keptAll (keep : Option Comment → Option Comment) : List Element → List Element
  | [] => []
  | .comment _ :: es => keptAll keep es
  | e :: es => kept keep e :: keptAll keep es

end

/-- A comment as the formatter prints it: with two slashes before each line, whatever it was, and
nothing behind the line. -/
def plainComment : Option Comment → Option Comment
  | none => none
  | some c => if c.lines = [] then none else some { position := {}, lines := c.lines.map commentText }

/-- A comment without its position. -/
def unplaced (c : Option Comment) : Option Comment :=
  c.map fun c => { c with position := {} }

/-- The declarations of the one file are those of the other in the order of the formatter. Of
their comments those kept by `new` are those kept by `old` before. -/
def PutInOrder (old new : Option Comment → Option Comment) (before after : List Element) : Prop :=
  ∃ (sort : List Opt → List Opt) (imports : List Import),
    (∀ l, (sort l).Perm l) ∧ imports.Perm (importsAmong before) ∧
    keptAll new after = keptAll old (tidyFile sort (fun _ => imports) before)

/-! ## What the parser and protoc make sure of -/

/-- A value that is a list or a map has no text of its own. -/
def PlainSource (l : Literal) : Prop := l.array ≠ [] ∨ l.orderedMap ≠ [] → l.source = []

/-- A file that lint looks at: its name ends in `.proto`, everything is where the grammar allows it,
only options whose names are in parentheses are set twice, and the option for HTTP is only used
where it is defined, in RPCs. -/
structure Lintable (d : FileDescriptor) : Prop where
  filename : s%".proto" <:+ d.filename
  grammatical : Grammatical d
  sources : ∀ o ∈ fileOptions d, PlainSource o.constant
  once : (((fileOptions d).map (·.name)).filter fun n => n.head? ≠ some '(').Nodup
  http : ∀ o ∈ outerOptions d, ¬ s%"(.google.api.http)" <+: o.name

/-- The one file is the other in the order of the formatter. -/
structure Reprinted (old new : Option Comment → Option Comment) (before after : FileDescriptor) : Prop where
  filename : after.filename = before.filename
  config : after.config = before.config
  wellBefore : Lintable before
  wellAfter : Lintable after
  rearranged : PutInOrder old new before.elements after.elements

/-- `after` is what is read from the formatted text of `before`. -/
structure Reformatted (srt : SortSlice) (q : Params) (before after : FileDescriptor) : Prop where
  filename : after.filename = before.filename
  config : after.config = before.config
  fits : FileFits before.elements
  wellBefore : Lintable before
  wellAfter : Lintable after
  text : ∃ text, transform srt q before.elements = .ok (text, []) ∧
    readFile text = some (bareAll after.elements)

/-- No line of a comment of a declaration ends in white space. -/
def CleanEnds (d : FileDescriptor) : Prop :=
  ∀ n ∈ fileNodes d, ∀ c, commentOf n.self = some c → ∀ l ∈ c.lines, trimRightBy isSpace l = l

/-- Each message of the file and each RPC begins on a line below that of the one before. -/
def Lined (d : FileDescriptor) : Prop :=
  ((fileNodes d).filter fun n =>
    (n.around.all nothing && isMessage n.self) || (n.around.all isService && isRPC n.self)).Pairwise
    fun a b => (positionOf a.self).line < (positionOf b.self).line

/-! ## The rules -/

/-- The rules that look at how comments are written. -/
def styleRules : List Str :=
  [s%"COMMENTS_NO_C_STYLE", s%"FILE_HEADER"]

/-- The rules that look at the comments of declarations. -/
def commentRules : List Str :=
  [s%"COMMENTS_NO_INLINE", s%"ENUM_FIELDS_HAVE_SENTENCE_COMMENTS",
   s%"ENUMS_HAVE_SENTENCE_COMMENTS",
   s%"MESSAGE_FIELDS_HAVE_SENTENCE_COMMENTS",
   s%"MESSAGES_HAVE_SENTENCE_COMMENTS_EXCEPT_REQUEST_RESPONSE_TYPES",
   s%"RPCS_HAVE_SENTENCE_COMMENTS", s%"SERVICES_HAVE_SENTENCE_COMMENTS",
   s%"MESSAGE_FIELDS_NOT_FLOATS", s%"NAMES_NO_COMMON", s%"NAMES_NO_DATA", s%"NAMES_NO_UUID",
   s%"PACKAGE_NO_KEYWORDS", s%"RPC_OPTIONS_NO_GOOGLE_API_HTTP", s%"SERVICE_NAMES_NO_PLURALS"]

/-- The rules that look for a name and a space at the beginning of comments. -/
def openingRules : List Str :=
  [s%"ENUM_FIELDS_HAVE_COMMENTS", s%"ENUMS_HAVE_COMMENTS", s%"MESSAGE_FIELDS_HAVE_COMMENTS",
   s%"MESSAGES_HAVE_COMMENTS", s%"MESSAGES_HAVE_COMMENTS_EXCEPT_REQUEST_RESPONSE_TYPES",
   s%"RPCS_HAVE_COMMENTS", s%"SERVICES_HAVE_COMMENTS"]

end Verif.Spec
