import Verif.Model.ProtoAST
import Verif.Model.Text
import Verif.Model.Settings

/-!
# Model of internal/lint/base_visitor.go

A Go visitor is an object with one method per kind of node and some state. A call of
a method is an `Act`: it takes the state to the next state and yields what happened
in between, a list of `Event`s in order.
-/

namespace Verif.Lint

open Verif Proto

/-- `FileDescriptor`, internal/lint/lint.go:314-320. Of the proto set the linters only
read the configuration. -/
structure FileDescriptor where
  filename : Str
  elements : List Element
  config : Settings.Config
  fileData : Str := []

/-- What a visitor does that can be seen from outside: a call of the `add` function, with
the proto set (as its configuration) and the comment or nil, or a nil dereference, which
ends the program. Nothing is executed after a panic; the events after it are ignored by
`Linter.check`. -/
inductive Event where
  | add (protoSet : Option Settings.Config) (comment : Option Comment) (failure : Text.Failure)
  | panic

/-- A piece of visiting: state to state and events. -/
abbrev Act (S : Type) := S → S × List Event

namespace Act

variable {S : Type}

/-- Do nothing. -/
def skip : Act S := fun s => (s, [])

/-- Yield events. -/
def emit (es : List Event) : Act S := fun s => (s, es)

/-- Change the state. -/
def modify (f : S → S) : Act S := fun s => (f s, [])

/-- One after the other. -/
def seq (a b : Act S) : Act S := fun s =>
  ((b (a s).1).1, (a s).2 ++ (b (a s).1).2)

end Act

/-- `text.NewFailuref(position, "", …)`, internal/text/text.go:227-235. -/
def newFailure (p : Position) (message : Str) : Text.Failure :=
  ⟨p.filename, p.line, p.column, [], message⟩

/-- `baseAddVisitor.AddFailuref`, internal/lint/base_visitor.go:64-66. The `add` function
of a linter that cannot be suppressed passes nil for set and comment,
internal/lint/base_linter.go:54-57. -/
def addFailure (p : Position) (message : List Str) : List Event :=
  [.add none none (newFailure p message.flatten)]

/-- `baseAddSuppressableVisitor.AddFailuref`, internal/lint/base_visitor.go:83-85. -/
def addSuppressable (c : Settings.Config) (comment : Option Comment) (p : Position)
    (message : List Str) : List Event :=
  [.add (some c) comment (newFailure p message.flatten)]

/-- `extendedVisitor`, internal/lint/base_visitor.go:87-97, with the defaults of
`baseVisitor`, :31-53. Where a node has children, the method gets the visiting of the
children in order (`for _, child := range … { child.Accept(v) }`) as an argument and may
use it; the children of a field are its options. -/
structure Visitor (S : Type) where
  onStart : FileDescriptor → Act S := fun _ => Act.skip
  finally_ : S → S × List Event × Option Err := fun s => (s, [], none)
  message : Message → Act S → Act S := fun _ _ => Act.skip
  service : Service → Act S → Act S := fun _ _ => Act.skip
  syntax_ : Syntax → Act S := fun _ => Act.skip
  package : Package → Act S := fun _ => Act.skip
  option : Parent → Opt → Act S := fun _ _ => Act.skip
  import_ : Import → Act S := fun _ => Act.skip
  normalField : NormalField → Act S → Act S := fun _ _ => Act.skip
  enumField : Parent → EnumField → Act S → Act S := fun _ _ _ => Act.skip
  enum : Enum → Act S → Act S := fun _ _ => Act.skip
  comment : Comment → Act S := fun _ => Act.skip
  oneof : Oneof → Act S → Act S := fun _ _ => Act.skip
  oneofField : Field → Act S → Act S := fun _ _ => Act.skip
  reserved : Reserved → Act S := fun _ => Act.skip
  rpc : RPC → Act S → Act S := fun _ _ => Act.skip
  mapField : MapField → Act S → Act S := fun _ _ => Act.skip
  group : Group → Act S → Act S := fun _ _ => Act.skip
  extensions : Extensions → Act S := fun _ => Act.skip

variable {S : Type}

/-- Visiting the options of a field. -/
def acceptOptions (v : Visitor S) (f : Field) : List Opt → Act S
  | [] => Act.skip
  | o :: os => (v.option (.field f) o).seq (acceptOptions v f os)

mutual

/-- `Accept` of the library: calls the method of the visitor for the kind of node. -/
def accept (v : Visitor S) (p : Parent) : Element → Act S
  | .comment c => v.comment c
  | .syntax s => v.syntax_ s
  | .package k => v.package k
  | .option o => v.option p o
  | .import i => v.import_ i
  | .message m es => v.message m (acceptAll v (.message m) es)
  | .enum e es => v.enum e (acceptAll v (.enum e) es)
  | .enumField f es => v.enumField p f (acceptAll v (.enumField f) es)
  | .service s es => v.service s (acceptAll v (.service s) es)
  | .rpc r es => v.rpc r (acceptAll v (.rpc r) es)
  | .normalField f => v.normalField f (acceptOptions v f.field f.field.options)
  | .mapField f => v.mapField f (acceptOptions v f.field f.field.options)
  | .oneof o es => v.oneof o (acceptAll v (.oneof o) es)
  | .oneofField f => v.oneofField f (acceptOptions v f f.options)
  | .reserved r => v.reserved r
  | .extensions e => v.extensions e
  | .group g es => v.group g (acceptAll v (.group g) es)

/-- Visiting nodes in order. -/
def acceptAll (v : Visitor S) (p : Parent) : List Element → Act S
  | [] => Act.skip
  | e :: es => (accept v p e).seq (acceptAll v p es)

end

/-- `runVisitor`, internal/lint/base_visitor.go:99-112. The visitor keeps its state from
file to file; an error of `Finally` ends the run. -/
def runVisitor (v : Visitor S) : List FileDescriptor → S → S × List Event × Option Err
  | [], s => (s, [], none)
  | d :: ds, s =>
    let r := ((v.onStart d).seq (acceptAll v .file d.elements)) s
    let f := v.finally_ r.1
    match f.2.2 with
    | some err => (f.1, r.2 ++ f.2.1, some err)
    | none =>
      let rest := runVisitor v ds f.1
      (rest.1, r.2 ++ f.2.1 ++ rest.2.1, rest.2.2)

end Verif.Lint
