import Verif.Spec.Wire

/-!
# The binary encoding of messages

The wire format of Protobuf, as an instance of `Format`. Simplifications: varints may
be of any length, strings are not checked to be UTF-8, and floating point numbers are
given by their bits.
-/

namespace Verif.Spec.Encoded

open Verif Reflect Spec

/-- What is written for one field. -/
inductive Wire where
  | varint (n : Nat)
  | fixed64 (bytes : List UInt8)
  | delimited (bytes : List UInt8)
  | group (bytes : List UInt8)
  | fixed32 (bytes : List UInt8)
deriving DecidableEq

/-- A scalar value: a number (booleans are 0 and 1), or the bytes of a string or of bytes. -/
inductive Datum where
  | number (n : Int)
  | bytes (b : List UInt8)
deriving DecidableEq

/-- A number in groups of seven bits, the lowest first; the rest of the bytes. -/
def varint : List UInt8 → Option (Nat × List UInt8)
  | [] => none
  | b :: bs =>
    if b < 128 then some (b.toNat, bs)
    else (varint bs).map fun r => (b.toNat - 128 + 128 * r.1, r.2)

/-- The first `n` bytes and the rest. -/
def bytesOf (n : Nat) (bs : List UInt8) : Option (List UInt8 × List UInt8) :=
  if n ≤ bs.length then some (bs.take n, bs.drop n) else none

mutual
/-- The field with the tag, and the rest of the bytes. `fuel` is the number of bytes. -/
def field (fuel : Nat) (tag : Nat) (bs : List UInt8) : Option (Wire × List UInt8) :=
  match fuel with
  | 0 => none
  | fuel + 1 =>
    match tag % 8 with
    | 0 => (varint bs).map fun r => (.varint r.1, r.2)
    | 1 => (bytesOf 8 bs).map fun r => (.fixed64 r.1, r.2)
    | 2 => do
      let (n, rest) ← varint bs
      let (b, rest) ← bytesOf n rest
      pure (.delimited b, rest)
    | 3 => do
      let (length, rest) ← groupEnd fuel (tag / 8) bs
      pure (.group (bs.take length), rest)
    | 5 => (bytesOf 4 bs).map fun r => (.fixed32 r.1, r.2)
    | _ => none
/-- The number of bytes before the end of the group with the number, and the rest after it. -/
def groupEnd (fuel : Nat) (number : Nat) (bs : List UInt8) : Option (Nat × List UInt8) :=
  match fuel with
  | 0 => none
  | fuel + 1 => do
    let (tag, rest) ← varint bs
    if tag = number * 8 + 4 then pure (0, rest)
    else
      let (_, rest) ← field fuel tag rest
      let (length, last) ← groupEnd fuel number rest
      pure (bs.length - rest.length + length, last)
end

/-- The fields of a message, in the order in which they are written. -/
def fieldsOf : Nat → List UInt8 → Option (List (Int × Wire))
  | _, [] => some []
  | 0, _ => none
  | fuel + 1, bs => do
    let (tag, rest) ← varint bs
    let (payload, rest) ← field (bs.length + 1) tag rest
    let others ← fieldsOf fuel rest
    pure (((tag / 8 : Nat), payload) :: others)

/-- The number in the lowest bits as two's complement. -/
def signed (bits : Nat) (n : Nat) : Int :=
  if n % 2 ^ bits < 2 ^ (bits - 1) then (n % 2 ^ bits : Nat) else (n % 2 ^ bits : Nat) - (2 ^ bits : Nat)

/-- The signed number whose zigzag encoding is given. -/
def zigzag (n : Nat) : Int := if n % 2 = 0 then (n / 2 : Nat) else -((n + 1) / 2 : Nat)

/-- A number of a varint type: int64, uint64, int32, bool, uint32, enum, sint32, sint64. -/
def ofVarint (type : Int) (n : Nat) : Option Int :=
  if type = 3 then some (signed 64 n)
  else if type = 4 then some (n % 2 ^ 64 : Nat)
  else if type = 5 ∨ type = 14 then some (signed 32 n)
  else if type = 8 then some (if n = 0 then 0 else 1)
  else if type = 13 then some (n % 2 ^ 32 : Nat)
  else if type = 17 then some (zigzag (n % 2 ^ 32))
  else if type = 18 then some (zigzag (n % 2 ^ 64))
  else none

/-- The number with the bytes, the lowest first. -/
def littleEndian : List UInt8 → Nat
  | [] => 0
  | b :: bs => b.toNat + 256 * littleEndian bs

/-- A number of a type of eight bytes: double, fixed64, sfixed64. -/
def ofFixed64 (type : Int) (b : List UInt8) : Option Int :=
  if type = 1 ∨ type = 6 then some (littleEndian b)
  else if type = 16 then some (signed 64 (littleEndian b))
  else none

/-- A number of a type of four bytes: float, fixed32, sfixed32. -/
def ofFixed32 (type : Int) (b : List UInt8) : Option Int :=
  if type = 2 ∨ type = 7 then some (littleEndian b)
  else if type = 15 then some (signed 32 (littleEndian b))
  else none

/-- The numbers of a packed repeated field. -/
def packed (type : Int) : Nat → List UInt8 → Option (List Int)
  | _, [] => some []
  | 0, _ => none
  | fuel + 1, bs => do
    let (n, rest) ←
      if type = 1 ∨ type = 6 ∨ type = 16 then do
        let (b, rest) ← bytesOf 8 bs
        let n ← ofFixed64 type b
        pure (n, rest)
      else if type = 2 ∨ type = 7 ∨ type = 15 then do
        let (b, rest) ← bytesOf 4 bs
        let n ← ofFixed32 type b
        pure (n, rest)
      else do
        let (v, rest) ← varint bs
        let n ← ofVarint type v
        pure (n, rest)
    let others ← packed type fuel rest
    pure (n :: others)

/-- The numbers written for a field of a numeric type or an enum. -/
def numbersOf (label type : Int) : Wire → Option (List Int)
  | .varint n => (ofVarint type n).map ([·])
  | .fixed64 b => (ofFixed64 type b).map ([·])
  | .fixed32 b => (ofFixed32 type b).map ([·])
  | .delimited b => if label = 3 then packed type b.length b else none
  | .group _ => none

/-- The binary encoding: fields are told apart by their numbers. -/
def binary : Format Int Wire (List Datum) where
  key _ number := number
  fields type w :=
    match w with
    | .delimited b => if type = 11 then fieldsOf b.length b else none
    | .group b => if type = 10 then fieldsOf b.length b else none
    | _ => none
  scalar label type w :=
    if type = 9 ∨ type = 12 then
      match w with
      | .delimited b => some [.bytes b]
      | _ => none
    else (numbersOf label type w).map fun ns => ns.map .number
  numbers label _ w := numbersOf label 14 w

/-- With the schema, the bytes are read as a message of the type `m` with the entries. -/
def ReadsBytes (ps : PackageSet) (m : Message) (bytes : List UInt8)
    (es : List (Entry Int Wire (List Datum))) : Prop :=
  ∃ rs, fieldsOf bytes.length bytes = some rs ∧ Reads binary ps m rs es

end Verif.Spec.Encoded
