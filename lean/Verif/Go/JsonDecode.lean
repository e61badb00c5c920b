import Verif.Go.Str
import Verif.Go.Keyed

/-!
# The part of Go's `encoding/json` that reads

The scanner and `Decoder.Decode` into structs, lists and maps. Strings are lists of characters
here, so the branches for invalid UTF-8 are left out. All errors have the same text.
-/

namespace Verif.Json

open Verif Str

/-- A JSON value. Numbers are kept as they are written. -/
inductive Doc where
  | null
  | bool (b : Bool)
  | number (text : Str)
  | string (s : Str)
  | array (items : List Doc)
  | object (members : List (Str × Doc))

/-! ## The scanner -/

/-- `isSpace` of encoding/json. -/
def isBlank (c : Char) : Bool := c == ' ' || c == '\t' || c == '\r' || c == '\n'

/-- Blanks between tokens. -/
def skipSpace (s : Str) : Str := s.dropWhile isBlank

/-- A hexadecimal digit, as in `getu4` of encoding/json. -/
def hexDigit (c : Char) : Option Nat :=
  if '0' ≤ c && c ≤ '9' then some (c.toNat - '0'.toNat)
  else if 'a' ≤ c && c ≤ 'f' then some (c.toNat - 'a'.toNat + 10)
  else if 'A' ≤ c && c ≤ 'F' then some (c.toNat - 'A'.toNat + 10)
  else none

/-- `getu4` of encoding/json: `\u` and four digits at the start of a text. -/
def getu4 : Str → Option Nat
  | '\\' :: 'u' :: a :: b :: c :: d :: _ =>
    match hexDigit a, hexDigit b, hexDigit c, hexDigit d with
    | some a, some b, some c, some d => some (a * 4096 + b * 256 + c * 16 + d)
    | _, _, _, _ => none
  | _ => none

/-- `utf16.IsSurrogate`. -/
def isSurrogate (n : Nat) : Bool := 0xD800 ≤ n && n < 0xE000

/-- `utf16.DecodeRune`; `none` is the replacement character. -/
def decodeRune (r1 r2 : Nat) : Option Nat :=
  if 0xD800 ≤ r1 && r1 < 0xDC00 && 0xDC00 ≤ r2 && r2 < 0xE000 then
    some ((r1 - 0xD800) * 0x400 + (r2 - 0xDC00) + 0x10000)
  else none

/-- The characters after a backslash that stand for one character. -/
def shortEscape (c : Char) : Option Char :=
  if c = '"' || c = '\\' || c = '/' then some c
  else if c = 'b' then some (Char.ofNat 8)
  else if c = 'f' then some (Char.ofNat 12)
  else if c = 'n' then some '\n'
  else if c = 'r' then some '\r'
  else if c = 't' then some '\t'
  else none

/-- An escape at the start of a text, as in `unquote` of encoding/json: the character and what
follows. Half of a pair alone becomes the replacement character. -/
def readEscape (s : Str) : Option (Char × Str) :=
  match s with
  | '\\' :: 'u' :: _ =>
    match getu4 s with
    | none => none
    | some r =>
      if isSurrogate r then
        match (getu4 (s.drop 6)).bind (decodeRune r) with
        | some n => some (Char.ofNat n, s.drop 12)
        | none => some (Char.ofNat 0xFFFD, s.drop 6)
      else some (Char.ofNat r, s.drop 6)
  | '\\' :: c :: rest => (shortEscape c).map fun c => (c, rest)
  | _ => none

/-- The characters of a string up to the closing quote, and what follows it. No more than
the first argument are read. -/
def readChars : Nat → Str → Option (Str × Str)
  | 0, _ => none
  | _ + 1, [] => none
  | fuel + 1, c :: rest =>
    if c = '"' then some ([], rest)
    else if c = '\\' then
      match readEscape (c :: rest) with
      | none => none
      | some (c, rest) => (readChars fuel rest).map fun r => (c :: r.1, r.2)
    else if c.toNat < 32 then none
    else (readChars fuel rest).map fun r => (c :: r.1, r.2)

/-- A string. -/
def readString : Str → Option (Str × Str)
  | '"' :: rest => readChars (rest.length + 1) rest
  | _ => none

/-- At least one digit. -/
def readDigits (s : Str) : Option (Str × Str) :=
  if s.takeWhile isDigit = [] then none else some (s.takeWhile isDigit, s.dropWhile isDigit)

/-- The part of a number before the point. -/
def readInteger : Str → Option (Str × Str)
  | '0' :: rest => some (s%"0", rest)
  | s => readDigits s

/-- The part of a number after the point, if there is one. -/
def readFraction : Str → Option (Str × Str)
  | '.' :: rest => (readDigits rest).map fun r => ('.' :: r.1, r.2)
  | s => some ([], s)

/-- The sign of an exponent, if there is one. -/
def readSign : Str → Str × Str
  | '+' :: rest => (s%"+", rest)
  | '-' :: rest => (s%"-", rest)
  | s => ([], s)

/-- The exponent of a number, if there is one. -/
def readExponent : Str → Option (Str × Str)
  | [] => some ([], [])
  | c :: rest =>
    if c = 'e' || c = 'E' then
      (readDigits (readSign rest).2).map fun r => (c :: (readSign rest).1 ++ r.1, r.2)
    else some ([], c :: rest)

/-- A number without sign. -/
def readUnsigned (s : Str) : Option (Str × Str) :=
  match readInteger s with
  | none => none
  | some (i, s) =>
    match readFraction s with
    | none => none
    | some (f, s) => (readExponent s).map fun r => (i ++ f ++ r.1, r.2)

/-- A number. -/
def readNumber : Str → Option (Str × Str)
  | '-' :: rest => (readUnsigned rest).map fun r => ('-' :: r.1, r.2)
  | s => readUnsigned s

/-- A word or a number. -/
def readLiteral (s : Str) : Option (Doc × Str) :=
  match s with
  | 'n' :: 'u' :: 'l' :: 'l' :: rest => some (.null, rest)
  | 't' :: 'r' :: 'u' :: 'e' :: rest => some (.bool true, rest)
  | 'f' :: 'a' :: 'l' :: 's' :: 'e' :: rest => some (.bool false, rest)
  | s => (readNumber s).map fun r => (.number r.1, r.2)

mutual
/-- A value at the start of a text, and what follows. The first argument bounds the depth and the
number of items. -/
def readDoc : Nat → Str → Option (Doc × Str)
  | 0, _ => none
  | fuel + 1, s =>
    match s with
    | '"' :: _ => (readString s).map fun r => (.string r.1, r.2)
    | '[' :: rest =>
      match skipSpace rest with
      | ']' :: rest => some (.array [], rest)
      | rest => (readItems fuel rest).map fun r => (.array r.1, r.2)
    | '{' :: rest =>
      match skipSpace rest with
      | '}' :: rest => some (.object [], rest)
      | rest => (readMembers fuel rest).map fun r => (.object r.1, r.2)
    | s => readLiteral s

/-- One or more items of a list, and the closing bracket. -/
def readItems : Nat → Str → Option (List Doc × Str)
  | 0, _ => none
  | fuel + 1, s =>
    match readDoc fuel s with
    | none => none
    | some (d, rest) =>
      match skipSpace rest with
      | ',' :: rest => (readItems fuel (skipSpace rest)).map fun r => (d :: r.1, r.2)
      | ']' :: rest => some ([d], rest)
      | _ => none

/-- One or more members of an object, and the closing brace. -/
def readMembers : Nat → Str → Option (List (Str × Doc) × Str)
  | 0, _ => none
  | fuel + 1, s =>
    match readString s with
    | none => none
    | some (name, rest) =>
      match skipSpace rest with
      | ':' :: rest =>
        match readDoc fuel (skipSpace rest) with
        | none => none
        | some (d, rest) =>
          match skipSpace rest with
          | ',' :: rest => (readMembers fuel (skipSpace rest)).map fun r => ((name, d) :: r.1, r.2)
          | '}' :: rest => some ([(name, d)], rest)
          | _ => none
      | _ => none
end

/-! ## Storing -/

/-- The error of all failures. -/
def mismatch : Err := s%"json: cannot unmarshal"

/-- `foldFunc` of encoding/json: letters in both cases, and two characters beyond ASCII. -/
def foldChar (c : Char) : Char :=
  if c.toNat = 0x212A then 'k' else if c.toNat = 0x17F then 's' else lowerChar c

/-- The field for a key, in `decodeState.object`. The tags are in lower case. -/
def matchesTag (tag key : Str) : Bool := key.map foldChar = tag

/-- A way to store a value into a variable. -/
abbrev Store (α : Type) := Doc → α → Except Err α

/-- A string variable, `decodeState.literalStore`. -/
def storeString : Store Str
  | .null, old => .ok old
  | .string s, _ => .ok s
  | _, _ => .error mismatch

/-- A boolean variable, `decodeState.literalStore`. -/
def storeBool : Store Bool
  | .null, old => .ok old
  | .bool b, _ => .ok b
  | _, _ => .error mismatch

/-- The loop of `decodeState.array`: an item is stored over the old one at its place, if there is one.
What an earlier, longer list has left behind in memory is not modelled. -/
def storeItems (item : Store α) (zero : α) : List Doc → List α → Except Err (List α)
  | [], _ => .ok []
  | d :: ds, old =>
    match item d (old.head?.getD zero) with
    | .error e => .error e
    | .ok a =>
      match storeItems item zero ds old.tail with
      | .error e => .error e
      | .ok as => .ok (a :: as)

/-- A list variable, `decodeState.array`. -/
def storeList (item : Store α) (zero : α) : Store (List α)
  | .null, _ => .ok []
  | .array ds, old => storeItems item zero ds old
  | _, _ => .error mismatch

/-- The loop of `decodeState.object` for maps with strings. -/
def storeEntries : List (Str × Doc) → GoMap Str Str → Except Err (GoMap Str Str)
  | [], m => .ok m
  | (k, d) :: ms, m =>
    match storeString d [] with
    | .error e => .error e
    | .ok v => storeEntries ms (m.set k v)

/-- A variable with a map of strings, `decodeState.object`. -/
def storeMap : Store (GoMap Str Str)
  | .null, _ => .ok []
  | .object ms, m => storeEntries ms m
  | _, _ => .error mismatch

/-- The loop of `decodeState.object` for structs, with `DisallowUnknownFields`. -/
def storeMembers (fields : List (Str × Store α)) : List (Str × Doc) → α → Except Err α
  | [], a => .ok a
  | (k, d) :: ms, a =>
    match fields.find? fun f => matchesTag f.1 k with
    | none => .error (s%"json: unknown field " ++ k)
    | some f =>
      match f.2 d a with
      | .error e => .error e
      | .ok a => storeMembers fields ms a

/-- A struct variable, `decodeState.object`. -/
def storeStruct (fields : List (Str × Store α)) : Store α
  | .null, a => .ok a
  | .object ms, a => storeMembers fields ms a
  | _, _ => .error mismatch

/-- `Decoder.Decode`: the first value of the text. What follows it is not looked at. -/
def decode (store : Store α) (text : Str) (a : α) : Except Err α :=
  match readDoc (text.length + 1) (skipSpace text) with
  | none => .error s%"invalid JSON"
  | some (d, _) => store d a

end Verif.Json
