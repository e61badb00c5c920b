import Verif.Go.Strconv
import Verif.Model.Format
import Verif.Spec.Lexer

/-!
# Specification: reading a protobuf text

The grammar of protobuf as a reader of tokens. It gives the declarations without comments and
positions. Where protobuf allows several ways to write the same, it has the one the formatter uses:
entries of aggregate values are `name: value` without separators, numbers are decimal.
-/

namespace Verif.Spec

open Verif Str Proto Format

/-- The number a word stands for. -/
def readInt : Str → Option Int
  | '-' :: s => if s ≠ [] ∧ s.all isDigit then some (-(decValue s : Int)) else none
  | s => if s ≠ [] ∧ s.all isDigit then some (decValue s : Int) else none

/-- This symbol. -/
def symbol (c : Char) : List Token → Option (List Token)
  | .sym d :: ts => if d = c then some ts else none
  | _ => none

/-- This word. -/
def keyword (w : Str) : List Token → Option (List Token)
  | .word s :: ts => if s = w then some ts else none
  | _ => none

/-- A word. -/
def ident : List Token → Option (Str × List Token)
  | .word s :: ts => some (s, ts)
  | _ => none

/-- A string. -/
def quotedText : List Token → Option (Str × List Token)
  | .str _ s :: ts => some (s, ts)
  | _ => none

/-- A number. -/
def number : List Token → Option (Int × List Token)
  | .word s :: ts => (readInt s).map fun n => (n, ts)
  | _ => none

/-- A name that ends at a symbol, such as `(foo.bar).baz` or `[foo.bar]`. -/
def nameUntil (stop : Char) : List Token → Option (Str × List Token)
  | .word s :: ts => (nameUntil stop ts).map fun r => (s ++ r.1, r.2)
  | .sym c :: ts => if c = stop then some ([], ts) else (nameUntil stop ts).map fun r => (c :: r.1, r.2)
  | _ => none

mutual

/-- The value of an option. -/
def readValue : Nat → List Token → Option (Literal × List Token)
  | 0, _ => none
  | n + 1, ts =>
    match ts with
    | .str q s :: ts => some (.mk s true q [] [], ts)
    | .word s :: ts => some (.plain s, ts)
    | .sym c :: ts =>
      if c = '[' then (readList n ts).map fun r => (.mk [] false '"' r.1 [], r.2)
      else if c = '{' then (readEntries n ts).map fun r => (.mk [] false '"' [] r.1, r.2)
      else none
    | _ => none

/-- Values separated by commas, up to the bracket. -/
def readList : Nat → List Token → Option (List Literal × List Token)
  | 0, _ => none
  | n + 1, ts =>
    (readValue n ts).bind fun v =>
    match symbol ',' v.2 with
    | some ts => (readList n ts).map fun r => (v.1 :: r.1, r.2)
    | none => (symbol ']' v.2).map fun ts => ([v.1], ts)

/-- Entries `name: value`, up to the brace. -/
def readEntries : Nat → List Token → Option (List (Str × Literal) × List Token)
  | 0, _ => none
  | n + 1, ts =>
    match symbol '}' ts with
    | some ts => some ([], ts)
    | none =>
      (nameUntil ':' ts).bind fun k =>
      (readValue n k.2).bind fun v =>
      (readEntries n v.2).map fun r => ((k.1, v.1) :: r.1, r.2)

end

/-- `name = value`. -/
def readOption (n : Nat) (ts : List Token) : Option (Opt × List Token) :=
  (nameUntil '=' ts).bind fun k =>
  (readValue n k.2).map fun v => ({ name := k.1, constant := v.1 }, v.2)

/-- What follows the word `option`. -/
def readOptionStatement (n : Nat) (ts : List Token) : Option (Opt × List Token) :=
  (readOption n ts).bind fun o => (symbol ';' o.2).map fun ts => (o.1, ts)

/-- Options separated by commas, up to the bracket. -/
def readBracketed : Nat → List Token → Option (List Opt × List Token)
  | 0, _ => none
  | n + 1, ts =>
    (readOption n ts).bind fun o =>
    match symbol ',' o.2 with
    | some ts => (readBracketed n ts).map fun r => (o.1 :: r.1, r.2)
    | none => (symbol ']' o.2).map fun ts => ([o.1], ts)

/-- `= number;` or `= number [options];`. -/
def readFieldEnd (n : Nat) (ts : List Token) : Option ((Int × List Opt) × List Token) :=
  (symbol '=' ts).bind fun ts =>
  (number ts).bind fun i =>
  match symbol '[' i.2 with
  | some ts =>
    (readBracketed n ts).bind fun os => (symbol ';' os.2).map fun ts => ((i.1, os.1), ts)
  | none => (symbol ';' i.2).map fun ts => ((i.1, []), ts)

/-- `name = number …;` for a type. -/
def readField (n : Nat) (type : Str) (ts : List Token) : Option (Field × List Token) :=
  (ident ts).bind fun name =>
  (readFieldEnd n name.2).map fun r =>
    ({ name := name.1, type := type, sequence := r.1.1, options := r.1.2 }, r.2)

/-- `a`, `a to b` or `a to max`. -/
def readRange (ts : List Token) : Option (Range × List Token) :=
  (number ts).bind fun a =>
  match keyword s%"to" a.2 with
  | none => some (⟨a.1, a.1, false⟩, a.2)
  | some ts =>
    match keyword s%"max" ts with
    | some ts => some (⟨a.1, a.1, true⟩, ts)
    | none => (number ts).map fun b => (⟨a.1, b.1, false⟩, b.2)

/-- Ranges separated by commas, up to the semicolon. -/
def readRanges : Nat → List Token → Option (List Range × List Token)
  | 0, _ => none
  | n + 1, ts =>
    (readRange ts).bind fun a =>
    match symbol ',' a.2 with
    | some ts => (readRanges n ts).map fun r => (a.1 :: r.1, r.2)
    | none => (symbol ';' a.2).map fun ts => ([a.1], ts)

/-- Strings separated by commas, up to the semicolon. -/
def readStrings : Nat → List Token → Option (List Str × List Token)
  | 0, _ => none
  | n + 1, ts =>
    (quotedText ts).bind fun a =>
    match symbol ',' a.2 with
    | some ts => (readStrings n ts).map fun r => (a.1 :: r.1, r.2)
    | none => (symbol ';' a.2).map fun ts => ([a.1], ts)

/-- What follows the word `reserved`. -/
def readReserved (n : Nat) (ts : List Token) : Option (Reserved × List Token) :=
  match quotedText ts with
  | some _ => (readStrings n ts).map fun r => ({ fieldNames := r.1 }, r.2)
  | none => (readRanges n ts).map fun r => ({ ranges := r.1 }, r.2)

/-- `(type)` or `(stream type)`. -/
def readStreamed (ts : List Token) : Option ((Bool × Str) × List Token) :=
  (symbol '(' ts).bind fun ts =>
  (ident ts).bind fun a =>
  match symbol ')' a.2 with
  | some ts => some ((false, a.1), ts)
  | none =>
    if a.1 = s%"stream" then
      (ident a.2).bind fun b => (symbol ')' b.2).map fun ts => ((true, b.1), ts)
    else none

/-- Option statements up to the brace. -/
def readOptions : Nat → List Token → Option (List Opt × List Token)
  | 0, _ => none
  | n + 1, ts =>
    match symbol '}' ts with
    | some ts => some ([], ts)
    | none =>
      (keyword s%"option" ts).bind fun ts =>
      (readOptionStatement n ts).bind fun o =>
      (readOptions n o.2).map fun r => (o.1 :: r.1, r.2)

/-- What follows the word `rpc`. -/
def readRPC (n : Nat) (ts : List Token) : Option (Element × List Token) :=
  (ident ts).bind fun name =>
  (readStreamed name.2).bind fun request =>
  (keyword s%"returns" request.2).bind fun ts =>
  (readStreamed ts).bind fun response =>
  let rpc : RPC := { name := name.1, streamsRequest := request.1.1, requestType := request.1.2,
                     streamsReturns := response.1.1, returnsType := response.1.2 }
  match symbol ';' response.2 with
  | some ts => some (.rpc rpc [], ts)
  | none =>
    (symbol '{' response.2).bind fun ts =>
    (readOptions n ts).map fun r => (.rpc rpc (r.1.map .option), r.2)

/-- What follows the word `map`: `<key, value> name = …;`. -/
def readMap (n : Nat) (ts : List Token) : Option (Element × List Token) :=
  (symbol '<' ts).bind fun ts =>
  (ident ts).bind fun key =>
  (symbol ',' key.2).bind fun ts =>
  (ident ts).bind fun value =>
  (symbol '>' value.2).bind fun ts =>
  (readField n value.1 ts).map fun r => (.mapField ⟨r.1, key.1⟩, r.2)

/-- A declaration at the top of a file that has no body. -/
def readTop (w : Str) (ts : List Token) : Option (Element × List Token) :=
  if w = s%"syntax" then
    (symbol '=' ts).bind fun ts =>
    (quotedText ts).bind fun s => (symbol ';' s.2).map fun ts => (.syntax { value := s.1 }, ts)
  else if w = s%"package" then
    (ident ts).bind fun s => (symbol ';' s.2).map fun ts => (.package { name := s.1 }, ts)
  else if w = s%"import" then
    match ident ts with
    | some kind =>
      if kind.1 = s%"public" ∨ kind.1 = s%"weak" then
        (quotedText kind.2).bind fun s =>
        (symbol ';' s.2).map fun ts => (.import { filename := s.1, kind := kind.1 }, ts)
      else none
    | none => (quotedText ts).bind fun s => (symbol ';' s.2).map fun ts => (.import { filename := s.1 }, ts)
  else none

/-- `name {`. -/
def readHead (ts : List Token) : Option (Str × List Token) :=
  (ident ts).bind fun name => (symbol '{' name.2).map fun ts => (name.1, ts)

/-- What follows the word `group`: `name = number {`. -/
def readGroupHead (ts : List Token) : Option ((Str × Int) × List Token) :=
  (ident ts).bind fun name =>
  (symbol '=' name.2).bind fun ts =>
  (number ts).bind fun i => (symbol '{' i.2).map fun ts => ((name.1, i.1), ts)

/-- The words that begin something else than a field in the body of a message. -/
def messageWords : List Str :=
  [s%"option", s%"message", s%"extend", s%"enum", s%"oneof", s%"reserved", s%"extensions", s%"map",
   s%"optional", s%"required", s%"repeated", s%"group"]

/-- A message or a group may be here. -/
def holdsMessages (around : Around) : Bool :=
  around = .message || around = .group

mutual

/-- A declaration. -/
def readElement (around : Around) : Nat → List Token → Option (Element × List Token)
  | 0, _ => none
  | n + 1, ts =>
    (ident ts).bind fun w =>
    if w.1 = s%"option" then (readOptionStatement n w.2).map fun r => (.option r.1, r.2)
    else if (around = .none ∨ holdsMessages around) ∧ (w.1 = s%"message" ∨ w.1 = s%"extend") then
      (readHead w.2).bind fun h =>
      (readElements .message n h.2).map fun r =>
        (.message { name := h.1, isExtend := w.1 = s%"extend" } r.1, r.2)
    else if (around = .none ∨ holdsMessages around) ∧ w.1 = s%"enum" then
      (readHead w.2).bind fun h =>
      (readElements .enum n h.2).map fun r => (.enum { name := h.1 } r.1, r.2)
    else if around = .none ∧ w.1 = s%"service" then
      (readHead w.2).bind fun h =>
      (readElements .service n h.2).map fun r => (.service { name := h.1 } r.1, r.2)
    else if around = .none then readTop w.1 w.2
    else if around = .service then
      if w.1 = s%"rpc" then readRPC n w.2 else none
    else if (around = .enum ∨ holdsMessages around) ∧ w.1 = s%"reserved" then
      (readReserved n w.2).map fun r => (.reserved r.1, r.2)
    else if around = .enum then
      (readFieldEnd n w.2).map fun r =>
        (.enumField { name := w.1, integer := r.1.1 } (r.1.2.map .option), r.2)
    else if w.1 = s%"group" then readGroup n false w.2
    else if around = .oneof then
      (readField n w.1 w.2).map fun r => (.oneofField r.1, r.2)
    else if w.1 = s%"oneof" then
      (readHead w.2).bind fun h =>
      (readElements .oneof n h.2).map fun r => (.oneof { name := h.1 } r.1, r.2)
    else if w.1 = s%"extensions" then
      (readRanges n w.2).map fun r => (.extensions { ranges := r.1 }, r.2)
    else if w.1 = s%"map" then readMap n w.2
    else if w.1 = s%"optional" ∨ w.1 = s%"required" ∨ w.1 = s%"repeated" then
      match keyword s%"group" w.2 with
      | some ts => readGroup n (w.1 = s%"optional") ts
      | none =>
        (ident w.2).bind fun type =>
        (readField n type.1 type.2).map fun r =>
          (.normalField { field := r.1, optional := w.1 = s%"optional", required := w.1 = s%"required",
                          repeated := w.1 = s%"repeated" }, r.2)
    else (readField n w.1 w.2).map fun r => (.normalField { field := r.1 }, r.2)

/-- What follows the word `group`. -/
def readGroup : Nat → Bool → List Token → Option (Element × List Token)
  | 0, _, _ => none
  | n + 1, optional, ts =>
    (readGroupHead ts).bind fun h =>
    (readElements .group n h.2).map fun r =>
      (.group { name := h.1.1, sequence := h.1.2, optional := optional } r.1, r.2)

/-- Declarations up to the brace, or to the end of the file. -/
def readElements (around : Around) : Nat → List Token → Option (List Element × List Token)
  | 0, _ => none
  | n + 1, ts =>
    if around = .none ∧ ts = [] then some ([], [])
    else
      match (if around = .none then none else symbol '}' ts) with
      | some ts => some ([], ts)
      | none =>
        (readElement around n ts).bind fun e =>
        (readElements around n e.2).map fun r => (e.1 :: r.1, r.2)

end

/-- The declarations in a text. Every step reads a token, so that there are enough steps. -/
def readFile (text : Str) : Option (List Element) :=
  (tokensOf text).bind fun ts => (readElements .none (ts.length + 1) ts).map fun r => r.1

end Verif.Spec
