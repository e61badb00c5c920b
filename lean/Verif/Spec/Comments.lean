import Verif.Spec.Bare

/-!
# Specification: the comments of a file
-/

namespace Verif.Spec

open Verif Str Proto Format

/-- The tokens without the comments. -/
def uncomment (ts : List Token) : List Token := ts.filter fun | .comment _ => false | _ => true

/-- The declarations the tokens are, leaving out the comments. -/
def readTokens (ts : List Token) : Option (List Element) :=
  (readElements .none ((uncomment ts).length + 1) (uncomment ts)).map fun r => r.1

/-- What the lines of a comment say. -/
def commentsOn (c : Option Comment) : List Str := (commentStrings c).map commentText

/-- The comments of an option. -/
def optionComments (o : Opt) : List Str := commentsOn o.comment ++ commentsOn o.inlineComment

/-- The comments of a field, with those of its options. -/
def fieldComments (f : Field) : List Str :=
  commentsOn f.comment ++ f.options.flatMap optionComments ++ commentsOn f.inlineComment

mutual

/-- The comments of a declaration: the one above it, those in it, and the one behind it. -/
def commentsIn : Element → List Str
  | .comment c => commentsOn (some c)
  | .syntax s => commentsOn s.comment ++ commentsOn s.inlineComment
  | .package p => commentsOn p.comment ++ commentsOn p.inlineComment
  | .option o => optionComments o
  | .import i => commentsOn i.comment ++ commentsOn i.inlineComment
  | .message m es => commentsOn m.comment ++ commentsAmong es
  | .enum e es => commentsOn e.comment ++ commentsAmong es
  | .enumField f es => commentsOn f.comment ++ commentsAmong es ++ commentsOn f.inlineComment
  | .service s es => commentsOn s.comment ++ commentsAmong es
  | .rpc r es => commentsOn r.comment ++ commentsAmong es ++ commentsOn r.inlineComment
  | .normalField f => fieldComments f.field
  | .mapField f => fieldComments f.field
  | .oneof o es => commentsOn o.comment ++ commentsAmong es
  | .oneofField f => fieldComments f
  | .reserved r => commentsOn r.comment ++ commentsOn r.inlineComment
  | .extensions e => commentsOn e.comment ++ commentsOn e.inlineComment
  | .group g es => commentsOn g.comment ++ commentsAmong es

def commentsAmong : List Element → List Str
  | [] => []
  | e :: es => commentsIn e ++ commentsAmong es

end

/-- The declaration is no option. -/
def notOption : Element → Bool
  | .option _ => false
  | _ => true

/-- The option has no comments. -/
def NoComments (o : Opt) : Prop := o.comment = none ∧ o.inlineComment = none

mutual

/-- There are no comments by themselves in the body of an RPC, and none in the brackets of a field
or an enum value. -/
def CommentsOutside : Element → Prop
  | .message _ es => AllOutside es
  | .enum _ es => AllOutside es
  | .enumField _ es => ∀ e ∈ es, ∃ o, e = .option o ∧ NoComments o
  | .service _ es => AllOutside es
  | .rpc _ es => ∀ e ∈ es, ∃ o, e = .option o
  | .normalField f => ∀ o ∈ f.field.options, NoComments o
  | .mapField f => ∀ o ∈ f.field.options, NoComments o
  | .oneof _ es => AllOutside es
  | .oneofField f => ∀ o ∈ f.options, NoComments o
  | .group _ es => AllOutside es
  | _ => True

def AllOutside : List Element → Prop
  | [] => True
  | e :: es => CommentsOutside e ∧ AllOutside es

end

end Verif.Spec
