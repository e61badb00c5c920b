import Verif.Spec.LintRun
import Verif.Spec.List

/-!
# Specification: the same files under other names

`rename ρ` replaces the file name in every position of a tree.
-/

namespace Verif.Proto

open Verif

/-- The position in the renamed file. -/
def Position.rename (ρ : Str → Str) (p : Position) : Position := { p with filename := ρ p.filename }

/-- The comment in the renamed file. -/
def Comment.rename (ρ : Str → Str) (c : Comment) : Comment :=
  { c with position := c.position.rename ρ }

/-- The option in the renamed file. -/
def Opt.rename (ρ : Str → Str) (o : Opt) : Opt :=
  { o with
    position := o.position.rename ρ
    comment := o.comment.map (·.rename ρ)
    inlineComment := o.inlineComment.map (·.rename ρ) }

/-- The syntax declaration in the renamed file. -/
def Syntax.rename (ρ : Str → Str) (s : Syntax) : Syntax :=
  { s with
    position := s.position.rename ρ
    comment := s.comment.map (·.rename ρ)
    inlineComment := s.inlineComment.map (·.rename ρ) }

/-- The package declaration in the renamed file. -/
def Package.rename (ρ : Str → Str) (p : Package) : Package :=
  { p with
    position := p.position.rename ρ
    comment := p.comment.map (·.rename ρ)
    inlineComment := p.inlineComment.map (·.rename ρ) }

/-- The import in the renamed file. It imports the same file. -/
def Import.rename (ρ : Str → Str) (i : Import) : Import :=
  { i with
    position := i.position.rename ρ
    comment := i.comment.map (·.rename ρ)
    inlineComment := i.inlineComment.map (·.rename ρ) }

/-- The message in the renamed file. -/
def Message.rename (ρ : Str → Str) (m : Message) : Message :=
  { m with position := m.position.rename ρ, comment := m.comment.map (·.rename ρ) }

/-- The enum in the renamed file. -/
def Enum.rename (ρ : Str → Str) (e : Enum) : Enum :=
  { e with position := e.position.rename ρ, comment := e.comment.map (·.rename ρ) }

/-- The enum value in the renamed file. -/
def EnumField.rename (ρ : Str → Str) (f : EnumField) : EnumField :=
  { f with
    position := f.position.rename ρ
    comment := f.comment.map (·.rename ρ)
    inlineComment := f.inlineComment.map (·.rename ρ) }

/-- The service in the renamed file. -/
def Service.rename (ρ : Str → Str) (s : Service) : Service :=
  { s with position := s.position.rename ρ, comment := s.comment.map (·.rename ρ) }

/-- The RPC in the renamed file. -/
def RPC.rename (ρ : Str → Str) (r : RPC) : RPC :=
  { r with
    position := r.position.rename ρ
    comment := r.comment.map (·.rename ρ)
    inlineComment := r.inlineComment.map (·.rename ρ) }

/-- The field in the renamed file. -/
def Field.rename (ρ : Str → Str) (f : Field) : Field :=
  { f with
    position := f.position.rename ρ
    comment := f.comment.map (·.rename ρ)
    options := f.options.map (·.rename ρ)
    inlineComment := f.inlineComment.map (·.rename ρ) }

/-- The field in the renamed file. -/
def NormalField.rename (ρ : Str → Str) (f : NormalField) : NormalField :=
  { f with field := f.field.rename ρ }

/-- The field in the renamed file. -/
def MapField.rename (ρ : Str → Str) (f : MapField) : MapField :=
  { f with field := f.field.rename ρ }

/-- The oneof in the renamed file. -/
def Oneof.rename (ρ : Str → Str) (o : Oneof) : Oneof :=
  { o with position := o.position.rename ρ, comment := o.comment.map (·.rename ρ) }

/-- The reserved declaration in the renamed file. -/
def Reserved.rename (ρ : Str → Str) (r : Reserved) : Reserved :=
  { r with
    position := r.position.rename ρ
    comment := r.comment.map (·.rename ρ)
    inlineComment := r.inlineComment.map (·.rename ρ) }

/-- The extensions declaration in the renamed file. -/
def Extensions.rename (ρ : Str → Str) (e : Extensions) : Extensions :=
  { e with
    position := e.position.rename ρ
    comment := e.comment.map (·.rename ρ)
    inlineComment := e.inlineComment.map (·.rename ρ) }

/-- The group in the renamed file. -/
def Group.rename (ρ : Str → Str) (g : Group) : Group :=
  { g with position := g.position.rename ρ, comment := g.comment.map (·.rename ρ) }

mutual

/-- The node in the renamed file. -/
def Element.rename (ρ : Str → Str) : Element → Element
  | .comment c => .comment (c.rename ρ)
  | .syntax s => .syntax (s.rename ρ)
  | .package p => .package (p.rename ρ)
  | .option o => .option (o.rename ρ)
  | .import i => .import (i.rename ρ)
  | .message m es => .message (m.rename ρ) (renameAll ρ es)
  | .enum e es => .enum (e.rename ρ) (renameAll ρ es)
  | .enumField f es => .enumField (f.rename ρ) (renameAll ρ es)
  | .service s es => .service (s.rename ρ) (renameAll ρ es)
  | .rpc r es => .rpc (r.rename ρ) (renameAll ρ es)
  | .normalField f => .normalField (f.rename ρ)
  | .mapField f => .mapField (f.rename ρ)
  | .oneof o es => .oneof (o.rename ρ) (renameAll ρ es)
  | .oneofField f => .oneofField (f.rename ρ)
  | .reserved r => .reserved (r.rename ρ)
  | .extensions e => .extensions (e.rename ρ)
  | .group g es => .group (g.rename ρ) (renameAll ρ es)

/-- The nodes in the renamed file. -/
def renameAll (ρ : Str → Str) : List Element → List Element
  | [] => []
  | e :: es => e.rename ρ :: renameAll ρ es

end

end Verif.Proto

namespace Verif.Spec

open Verif Proto Lint

/-- The parser uses the name a file is given only in the positions of the tree. -/
def ParsesByContent (host : Host) : Prop :=
  ∀ path filename elements data, host.parse path filename = .ok (elements, data) →
    ∀ ρ : Str → Str, host.parse path (ρ filename) = .ok (renameAll ρ elements, data)

/-- All files of the set. -/
def allFiles (ps : File.ProtoSet) : List File.ProtoFile := ps.dirPathToFiles.flatMap (·.2)

/-- The name a file is shown under belongs to the file: it lies at its path, has its base name,
and no other file has that name or path. -/
structure Displayed (host : Host) (ps : File.ProtoSet) : Prop where
  absolute : ∀ f ∈ allFiles ps, Path.isAbs f.path = true
  lies : ∀ f ∈ allFiles ps, LiesAt host f.displayPath f.path
  base : ∀ f ∈ allFiles ps, Path.base f.displayPath = Path.base f.path
  unique : ∀ f ∈ allFiles ps, ∀ g ∈ allFiles ps, f.path = g.path ↔ f.displayPath = g.displayPath

/-- The same rule complains about the same place of the same file, which is called differently
in the two runs. -/
def SamePlace (ps : File.ProtoSet) (absolutePaths absolutePaths' : Bool)
    (f g : Text.Failure) : Prop :=
  g.lintID = f.lintID ∧ g.line = f.line ∧ g.column = f.column ∧
    ∃ file ∈ allFiles ps, f.filename = nameIn absolutePaths file ∧
      g.filename = nameIn absolutePaths' file

end Verif.Spec
