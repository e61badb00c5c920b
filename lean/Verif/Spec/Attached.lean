import Verif.Spec.Comments
import Verif.Spec.Reformatted

/-!
# Specification: reading a protobuf text with its comments

The reader of `Verif.Spec.Reader` leaves out the comments. This one gives each comment to the
declaration it belongs to. Comments on consecutive lines are one comment. It belongs to the
declaration on the next line. A comment behind a statement, on its line, belongs to the statement.
Every other comment is by itself.
-/

namespace Verif.Spec

open Verif Str Proto Format

/-! ## The lines of the tokens -/

/-- The tokens of a text that begins on a line, each with the line it ends on. -/
def lexPlaced (line : Int) (mode : Mode) : Str → Option (List (Int × Token))
  | [] => (lexEnd true ⟨[], mode⟩).map fun ts => ts.map fun t => (line, t)
  | c :: cs =>
    (lexStep true ⟨[], mode⟩ c).bind fun l =>
    (lexPlaced (if c = '\n' then line + 1 else line) l.mode cs).map fun ts =>
      l.tokens.map (fun t => (line, t)) ++ ts

/-- The line of the last token. -/
def lastLine (ts : List (Int × Token)) : Int := (ts.getLast?.map fun t => t.1).getD 0

/-! ## Comments -/

/-- A comment read from the text. -/
def remark (lines : List Str) : Comment := { position := {}, lines := lines }

/-- The comments on the lines that follow the line, the line of the last of them, and what comes
then. -/
def following (line : Int) : List (Int × Token) → List Str × Int × List (Int × Token)
  | (l, .comment s) :: ts =>
    if l = line + 1 then (s :: (following l ts).1, (following l ts).2)
    else ([], line, (l, .comment s) :: ts)
  | ts => ([], line, ts)

/-- A declaration begins on the line below. -/
def beginsBelow (around : Around) (line : Int) : List (Int × Token) → Bool
  | (l, t) :: _ => l = line + 1 && !(around ≠ .none && t = .sym '}')
  | [] => false

/-- A comment may belong to the declaration although it is behind it. -/
def takesInline : Element → Bool
  | .syntax _ | .package _ | .option _ | .import _ | .enumField _ _ | .rpc _ _ | .normalField _
  | .mapField _ | .oneofField _ | .reserved _ | .extensions _ => true
  | _ => false

/-- The comment behind a declaration that ends on the line, and what comes then. -/
def behind (e : Element) (line : Int) : List (Int × Token) → Option Comment × List (Int × Token)
  | (l, .comment s) :: ts =>
    if l = line ∧ takesInline e then (some (remark [s]), ts) else (none, (l, .comment s) :: ts)
  | ts => (none, ts)

/-- The declaration with these comments. -/
def withComments (c i : Option Comment) : Element → Element
  | .comment d => .comment d
  | .syntax s => .syntax { s with comment := c, inlineComment := i }
  | .package p => .package { p with comment := c, inlineComment := i }
  | .option o => .option { o with comment := c, inlineComment := i }
  | .import d => .import { d with comment := c, inlineComment := i }
  | .message m es => .message { m with comment := c } es
  | .enum e es => .enum { e with comment := c } es
  | .enumField f es => .enumField { f with comment := c, inlineComment := i } es
  | .service s es => .service { s with comment := c } es
  | .rpc r es => .rpc { r with comment := c, inlineComment := i } es
  | .normalField f => .normalField { f with field := { f.field with comment := c, inlineComment := i } }
  | .mapField f => .mapField { f with field := { f.field with comment := c, inlineComment := i } }
  | .oneof o es => .oneof { o with comment := c } es
  | .oneofField f => .oneofField { f with comment := c, inlineComment := i }
  | .reserved r => .reserved { r with comment := c, inlineComment := i }
  | .extensions e => .extensions { e with comment := c, inlineComment := i }
  | .group g es => .group { g with comment := c } es

/-! ## Bodies -/

/-- The declaration that begins here may have a body. -/
def mayOpen (around : Around) : List Token → Bool
  | .word w :: .word v :: _ =>
    (around = .none || holdsMessages around) && (w = s%"message" || w = s%"extend" || w = s%"enum") ||
    around = .none && w = s%"service" ||
    around = .service && w = s%"rpc" ||
    holdsMessages around && w = s%"oneof" ||
    (around = .oneof || holdsMessages around) && w = s%"group" ||
    holdsMessages around && (w = s%"optional" || w = s%"required" || w = s%"repeated") && v = s%"group"
  | _ => false

/-- How many tokens there are up to the first brace, if the statement does not end before it. -/
def braceAt : List Token → Option Nat
  | [] => none
  | t :: ts =>
    if t = .sym '{' then some 1 else if t = .sym ';' then none else (braceAt ts).map fun k => k + 1

/-- What the declarations in the body of the declaration are in. The body of an RPC is read like
that of a service. -/
def insideOf : Element → Around
  | .message _ _ => .message
  | .enum _ _ => .enum
  | .oneof _ _ => .oneof
  | .group _ _ => .group
  | _ => .service

/-- In the body of an RPC there are only options and comments. -/
def mayHold : Element → List Element → Bool
  | .rpc _ _, es => es.all fun | .option _ => true | .comment _ => true | _ => false
  | _, _ => true

/-- The declaration with this body. -/
def withBody (body : List Element) : Element → Element
  | .message m _ => .message m body
  | .enum e _ => .enum e body
  | .service s _ => .service s body
  | .rpc r _ => .rpc r body
  | .oneof o _ => .oneof o body
  | .group g _ => .group g body
  | e => e

/-! ## Declarations -/

/-- A declaration without its own comments, the line it ends on, and what comes then. `body` reads
the body. -/
def readDeclaration
    (body : Around → List (Int × Token) → Option (List Element × Int × List (Int × Token)))
    (around : Around) (ts : List (Int × Token)) : Option (Element × Int × List (Int × Token)) :=
  let plain := ts.map fun t => t.2
  match (if mayOpen around plain then braceAt plain else none) with
  | some k =>
    (readElement around (k + 2) (plain.take k ++ [.sym '}'])).bind fun h =>
    (body (insideOf h.1) (ts.drop k)).bind fun b =>
    if mayHold h.1 b.1 then some (withBody b.1 h.1, b.2) else none
  | none =>
    (readElement around (plain.length + 1) plain).map fun r =>
      (r.1, lastLine (ts.take (ts.length - r.2.length)), ts.drop (ts.length - r.2.length))

/-- A declaration with the comment above it and the one behind it, and the declarations that
follow. `more` reads those and the body. -/
def readNext
    (more : Around → List (Int × Token) → Option (List Element × Int × List (Int × Token)))
    (around : Around) (above : Option Comment) (ts : List (Int × Token)) :
    Option (List Element × Int × List (Int × Token)) :=
  (readDeclaration more around ts).bind fun d =>
  (more around (behind d.1 d.2.1 d.2.2).2).map fun r =>
    (withComments above (behind d.1 d.2.1 d.2.2).1 d.1 :: r.1, r.2)

/-- Declarations and comments up to the brace or the end of the file, with the line of the brace
and what comes then. -/
def readCommented : Nat → Around → List (Int × Token) → Option (List Element × Int × List (Int × Token))
  | 0, _, _ => none
  | n + 1, around, ts =>
    match ts with
    | [] => if around = .none then some ([], 0, []) else none
    | (l, .comment s) :: ts =>
      if beginsBelow around (following l ts).2.1 (following l ts).2.2 then
        readNext (fun a t => readCommented n a t) around (some (remark (s :: (following l ts).1)))
          (following l ts).2.2
      else
        (readCommented n around (following l ts).2.2).map fun r =>
          (.comment (remark (s :: (following l ts).1)) :: r.1, r.2)
    | (l, t) :: ts =>
      if around ≠ .none ∧ t = .sym '}' then some ([], l, ts)
      else readNext (fun a t => readCommented n a t) around none ((l, t) :: ts)

/-- The declarations in a text with their comments. Every step reads a token, so that there are
enough steps. -/
def readWithComments (text : Str) : Option (List Element) :=
  (lexPlaced 1 .between text).bind fun ts => (readCommented (ts.length + 1) .none ts).map fun r => r.1

/-! ## What is read from a formatted file -/

mutual

/-- A declaration without positions, with its comments as they are printed. -/
def shown : Element → Element
  | .comment c => .comment (remark (c.lines.map commentText))
  | .syntax s => .syntax { comment := plainComment s.comment, value := s.value
                           inlineComment := plainComment s.inlineComment }
  | .package p => .package { comment := plainComment p.comment, name := p.name
                             inlineComment := plainComment p.inlineComment }
  | .option o => .option (keptOption plainComment o)
  | .import i => .import { comment := plainComment i.comment, filename := i.filename, kind := i.kind
                           inlineComment := plainComment i.inlineComment }
  | .message m es => .message { comment := plainComment m.comment, name := m.name, isExtend := m.isExtend }
      (shownAll es)
  | .enum e es => .enum { comment := plainComment e.comment, name := e.name } (shownAll es)
  | .enumField f es => .enumField { comment := plainComment f.comment, name := f.name, integer := f.integer
                                    inlineComment := plainComment f.inlineComment } (shownAll es)
  | .service s es => .service { comment := plainComment s.comment, name := s.name } (shownAll es)
  | .rpc r es =>
    .rpc { comment := plainComment r.comment, name := r.name, requestType := r.requestType
           streamsRequest := r.streamsRequest, returnsType := r.returnsType
           streamsReturns := r.streamsReturns, inlineComment := plainComment r.inlineComment } (shownAll es)
  | .normalField f => .normalField { f with field := keptField plainComment f.field }
  | .mapField f => .mapField { f with field := keptField plainComment f.field }
  | .oneof o es => .oneof { comment := plainComment o.comment, name := o.name } (shownAll es)
  | .oneofField f => .oneofField (keptField plainComment f)
  | .reserved r => .reserved { comment := plainComment r.comment, ranges := r.ranges.map bareRange
                               fieldNames := r.fieldNames, inlineComment := plainComment r.inlineComment }
  | .extensions e => .extensions { comment := plainComment e.comment, ranges := e.ranges.map bareRange
                                   inlineComment := plainComment e.inlineComment }
  | .group g es => .group { comment := plainComment g.comment, name := g.name, optional := g.optional
                            sequence := g.sequence } (shownAll es)

/-- Declarations and the comments among them. A comment without lines is not printed. -/
def shownAll : List Element → List Element
  | [] => []
  | e :: es => (if silent e then [] else [shown e]) ++ shownAll es
where
  /-- A comment without lines. -/
  silent : Element → Bool
    | .comment c => c.lines = []
    | _ => false

end

/-- The comment above the syntax statement as a comment by itself: an empty line is printed below
it. -/
def setOff : List Element → List Element
  | [] => []
  | .syntax s :: es =>
    (s.comment.toList.map Element.comment) ++ .syntax { s with comment := none } :: setOff es
  | e :: es => e :: setOff es

/-! ## Comments behind statements -/

/-- The comment is one line. -/
def ShortComment (c : Option Comment) : Prop := (commentStrings c).length ≤ 1

mutual

/-- The comments behind statements are one line each. -/
def ShortIn : Element → Prop
  | .comment _ => True
  | .syntax s => ShortComment s.inlineComment
  | .package p => ShortComment p.inlineComment
  | .option o => ShortComment o.inlineComment
  | .import i => ShortComment i.inlineComment
  | .message _ es => ShortAll es
  | .enum _ es => ShortAll es
  | .enumField f _ => ShortComment f.inlineComment
  | .service _ es => ShortAll es
  | .rpc r es => ShortComment r.inlineComment ∧ ShortAll es
  | .normalField f => ShortComment f.field.inlineComment
  | .mapField f => ShortComment f.field.inlineComment
  | .oneof _ es => ShortAll es
  | .oneofField f => ShortComment f.inlineComment
  | .reserved r => ShortComment r.inlineComment
  | .extensions e => ShortComment e.inlineComment
  | .group _ es => ShortAll es

def ShortAll : List Element → Prop
  | [] => True
  | e :: es => ShortIn e ∧ ShortAll es

end

/-! ## Comments without lines -/

mutual

/-- The comments by themselves have lines, and so has the one above the syntax statement. -/
def Spoken : Element → Prop
  | .comment c => c.lines ≠ []
  | .syntax s => ∀ c, s.comment = some c → c.lines ≠ []
  | .message _ es => AllSpoken es
  | .enum _ es => AllSpoken es
  | .service _ es => AllSpoken es
  | .oneof _ es => AllSpoken es
  | .group _ es => AllSpoken es
  | _ => True

def AllSpoken : List Element → Prop
  | [] => True
  | e :: es => Spoken e ∧ AllSpoken es

end

/-! ## Headers -/

/-- The header is the comment with these lines. -/
def IsHeader (header : Str) (lines : List Str) : Prop :=
  lines ≠ [] ∧ header = join s%"\n" (lines.map (s%"//" ++ ·)) ∧ ∀ l ∈ lines, commentText l = l ∧ '\n' ∉ l

/-- The file with the header in place of the comments at the top. -/
def headed (lines : List Str) (es : List Element) : List Element :=
  .comment (remark lines) :: es.dropWhile isComment

/-! ## A file as it is parsed -/

mutual

/-- A declaration with its comments but without positions. -/
def placeless : Element → Element
  | .comment c => .comment { c with position := {} }
  | .syntax s => .syntax { comment := unplaced s.comment, value := s.value, inlineComment := unplaced s.inlineComment }
  | .package p => .package { comment := unplaced p.comment, name := p.name, inlineComment := unplaced p.inlineComment }
  | .option o => .option (keptOption unplaced o)
  | .import i => .import { comment := unplaced i.comment, filename := i.filename, kind := i.kind
                           inlineComment := unplaced i.inlineComment }
  | .message m es => .message { comment := unplaced m.comment, name := m.name, isExtend := m.isExtend }
      (placelessAll es)
  | .enum e es => .enum { comment := unplaced e.comment, name := e.name } (placelessAll es)
  | .enumField f es => .enumField { comment := unplaced f.comment, name := f.name, integer := f.integer
                                    inlineComment := unplaced f.inlineComment } (placelessAll es)
  | .service s es => .service { comment := unplaced s.comment, name := s.name } (placelessAll es)
  | .rpc r es =>
    .rpc { comment := unplaced r.comment, name := r.name, requestType := r.requestType
           streamsRequest := r.streamsRequest, returnsType := r.returnsType
           streamsReturns := r.streamsReturns, inlineComment := unplaced r.inlineComment } (placelessAll es)
  | .normalField f => .normalField { f with field := keptField unplaced f.field }
  | .mapField f => .mapField { f with field := keptField unplaced f.field }
  | .oneof o es => .oneof { comment := unplaced o.comment, name := o.name } (placelessAll es)
  | .oneofField f => .oneofField (keptField unplaced f)
  | .reserved r => .reserved { comment := unplaced r.comment, ranges := r.ranges.map bareRange
                               fieldNames := r.fieldNames, inlineComment := unplaced r.inlineComment }
  | .extensions e => .extensions { comment := unplaced e.comment, ranges := e.ranges.map bareRange
                                   inlineComment := unplaced e.inlineComment }
  | .group g es => .group { comment := unplaced g.comment, name := g.name, optional := g.optional
                            sequence := g.sequence } (placelessAll es)

def placelessAll : List Element → List Element
  | [] => []
  | e :: es => placeless e :: placelessAll es

end

/-- `after` is what is read from the formatted text of `before`, with comments. -/
structure ReadBack (srt : SortSlice) (q : Params) (before after : Lint.FileDescriptor) : Prop where
  filename : after.filename = before.filename
  config : after.config = before.config
  fits : FileFits before.elements
  oneLine : OneLine before.elements
  outside : AllOutside before.elements
  short : ShortAll before.elements
  wellBefore : Lintable before
  wellAfter : Lintable after
  text : ∃ text, transform srt q before.elements = .ok (text, []) ∧
    readWithComments text = some (placelessAll after.elements)

end Verif.Spec
