import Verif.Go.Str

/-!
# The part of Go's `regexp` used to read the output of protoc

Expressions without alternatives: sequences of literal text, `.`, `.*` and `\d+`, with
groups that are not nested, and with or without `^` and `$`. As in Go, the match is the
leftmost one, and among those the one a backtracking matcher finds first, that is, every
`*` and `+` takes as much as it can.
-/

namespace Verif.Regexp

open Verif Str

/-- One piece of an expression: literal text, `.`, `.*` or `\d+`. -/
inductive Piece where
  | lit (s : Str)
  | any
  | star
  | digits
deriving DecidableEq, Repr

/-- `.` matches every character but the newline. -/
def dot (c : Char) : Bool := c ≠ '\n'

/-- An expression. Every piece has the number of the group it belongs to, 0 for none. -/
structure Exp where
  /-- starts with `^` -/
  fromStart : Bool := true
  pieces : List (Nat × Piece)
  /-- ends with `$` -/
  toEnd : Bool := true

/-- Takes as many characters that satisfy `p` as it can such that `k` accepts the rest.
`k` gets the characters taken and the rest. -/
def greedy {α : Type} (p : Char → Bool) (k : Str → Str → Option α) (taken : Str) : Str → Option α
  | [] => k taken []
  | c :: cs =>
    if p c then
      match greedy p k (taken ++ [c]) cs with
      | some r => some r
      | none => k taken (c :: cs)
    else k taken (c :: cs)

/-- The texts matched by the pieces, at the start of `s`. -/
def matchHere (toEnd : Bool) : List Piece → Str → Option (List Str)
  | [], s => if toEnd && s ≠ [] then none else some []
  | .lit l :: ps, s =>
    if hasPrefix s l then (matchHere toEnd ps (s.drop l.length)).map (l :: ·) else none
  | .any :: ps, s =>
    match s with
    | [] => none
    | c :: cs => if dot c then (matchHere toEnd ps cs).map ([c] :: ·) else none
  | .star :: ps, s =>
    greedy dot (fun taken rest => (matchHere toEnd ps rest).map (taken :: ·)) [] s
  | .digits :: ps, s =>
    match s with
    | [] => none
    | c :: cs =>
      if isDigit c then
        greedy isDigit (fun taken rest => (matchHere toEnd ps rest).map (taken :: ·)) [c] cs
      else none

/-- The texts matched by the pieces, at the first place where they match. -/
def matchAnywhere (toEnd : Bool) (ps : List Piece) : Str → Option (List Str)
  | [] => matchHere toEnd ps []
  | c :: cs =>
    match matchHere toEnd ps (c :: cs) with
    | some r => some r
    | none => matchAnywhere toEnd ps cs

/-- The text of a group: the texts of its pieces. -/
def group (ps : List (Nat × Piece)) (texts : List Str) (n : Nat) : Str :=
  ((ps.zip texts).filter (fun x => x.1.1 = n)).flatMap (·.2)

/-- `FindStringSubmatch`: `none` if there is no match, and otherwise the texts of the
groups. -/
def Exp.find (e : Exp) (s : Str) : Option (Nat → Str) :=
  let ps := e.pieces.map (·.2)
  (if e.fromStart then matchHere e.toEnd ps s else matchAnywhere e.toEnd ps s).map (group e.pieces)

end Verif.Regexp
